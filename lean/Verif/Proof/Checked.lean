import Verif.Model.Checked

/-! Lemmas for C109: the checks never fire. -/

namespace Verif.Model.Checked

theorem bind_ok {α β : Type} (a : α) (f : α → Res β) : (Except.ok a >>= f : Res β) = f a := rfl

theorem idx_ok {α : Type} {a : List α} {i : Nat} (d : α) (h : i < a.length) : idx a i = .ok (a.getD i d) := by
  unfold idx
  simp [List.getElem?_eq_getElem h, List.getD_eq_getElem?_getD]

theorem idx_ok' {α : Type} {a : List α} {i : Nat} {x : α} (h : a[i]? = some x) : idx a i = .ok x := by
  unfold idx; rw [h]

theorem put_ok {α : Type} {a : List α} {i : Nat} (x : α) (h : i < a.length) : put a i x = .ok (a.set i x) := if_pos h

theorem shl_ok {w : Nat} (a : BitVec w) {k : Nat} (h : k < w) : shl a k = .ok (a <<< k) := if_pos h
theorem shr_ok {w : Nat} (a : BitVec w) {k : Nat} (h : k < w) : shr a k = .ok (a >>> k) := if_pos h
theorem addN_ok {w a b : Nat} (h : a + b < 2 ^ w) : addN w a b = .ok (a + b) := if_pos h
theorem subN_ok {a b : Nat} (h : b ≤ a) : subN a b = .ok (a - b) := if_pos h
theorem add_ok {w : Nat} {a b : BitVec w} (h : a.toNat + b.toNat < 2 ^ w) : add a b = .ok (a + b) := if_pos h
theorem divN_ok (a : Nat) {b : Nat} (h : b ≠ 0) : divN a b = .ok (a / b, a % b) := if_neg h
theorem i64_ok {x : Int} (h : -2 ^ 63 ≤ x ∧ x < 2 ^ 63) : i64 x = .ok x := if_pos h

theorem look_ok {w : Nat} {T : List (BitVec w)} (h : T.length = 256) (x : Byte) : look T x = .ok (lookup T x) := by
  unfold look lookup
  exact idx_ok _ (by rw [h]; exact x.isLt)

theorem set_append {α : Type} (e : List α) (z : α) (m : Nat) (x : α) :
    (e ++ List.replicate (m + 1) z).set e.length x = (e ++ [x]) ++ List.replicate m z := by
  rw [List.set_append_right _ _ (Nat.le_refl _), Nat.sub_self, List.replicate_succ, List.set_cons_zero, List.append_assoc]; rfl

theorem idx_app {α : Type} {e t : List α} {i : Nat} (d : α) (h : i < e.length) : idx (e ++ t) i = .ok (e.getD i d) := by
  rw [idx_ok d (by rw [List.length_append]; omega)]
  simp [List.getD_eq_getElem?_getD, List.getElem?_append_left h]

namespace AES
open Model.AES

theorem subWord_ok (w : BitVec 32) : subWord w = .ok (Model.AES.subWord w) := by
  have h : sbox0.length = 256 := by decide +kernel
  unfold subWord
  rw [look_ok h, look_ok h, look_ok h, look_ok h]; rfl

theorem tdWord_ok (w : BitVec 32) : tdWord w = .ok (Model.AES.tdWord w) := by
  have h : sbox0.length = 256 := by decide +kernel
  have h0 : td0.length = 256 := by decide +kernel
  have h1 : td1.length = 256 := by decide +kernel
  have h2 : td2.length = 256 := by decide +kernel
  have h3 : td3.length = 256 := by decide +kernel
  unfold tdWord
  simp only [look_ok h, look_ok h0, look_ok h1, look_ok h2, look_ok h3, bind_ok]; rfl

theorem schedT_ok {nk i : Nat} (t : BitVec 32) (hk : nk ≠ 0) (hi : nk ≤ i) (hp : i / nk ≤ 10) : schedT nk i t = .ok (Model.AES.schedT nk i t) := by
  have hl : powx.length = 10 := by decide +kernel
  have h1 : 1 ≤ i / nk := (Nat.le_div_iff_mul_le (Nat.pos_of_ne_zero hk)).mpr (by omega)
  unfold schedT Model.AES.schedT
  rw [divN_ok _ hk, bind_ok]
  simp only []
  by_cases h : i % nk = 0
  · rw [if_pos h, if_pos h, subWord_ok, bind_ok, subN_ok h1, bind_ok, idx_ok 0#32 (by rw [hl]; omega), bind_ok]
  · rw [if_neg h, if_neg h]
    split
    · exact subWord_ok _
    · rfl

theorem schedLoop_ok {nk : Nat} (hk : nk ≠ 0) : ∀ (count i : Nat) (enc : List (BitVec 32)), enc.length = i → nk ≤ i → i + count ≤ 11 * nk →
    schedLoop nk count i (enc ++ List.replicate count 0#32) = .ok (Model.AES.schedLoop nk count i enc)
  | 0, i, enc, _, _, _ => by simp [schedLoop, Model.AES.schedLoop]
  | count + 1, i, enc, hl, hi, hp => by
    have hpos := Nat.pos_of_ne_zero hk
    unfold schedLoop Model.AES.schedLoop
    rw [subN_ok (by omega), bind_ok, idx_app 0#32 (by omega), bind_ok,
      schedT_ok _ hk hi (Nat.le_of_lt_succ ((Nat.div_lt_iff_lt_mul hpos).mpr (by omega))), bind_ok, subN_ok hi, bind_ok, idx_app 0#32 (by omega), bind_ok,
      put_ok _ (by rw [List.length_append, List.length_replicate]; omega), bind_ok]
    subst hl
    rw [set_append]
    exact schedLoop_ok hk count _ _ (by simp) (by omega) (by omega)

theorem model_schedLoop_length (nk : Nat) : ∀ (count i : Nat) (enc : List (BitVec 32)),
    (Model.AES.schedLoop nk count i enc).length = enc.length + count
  | 0, _, _ => rfl
  | count + 1, i, enc => by
    unfold Model.AES.schedLoop
    rw [model_schedLoop_length nk count]; simp; omega

/-- One pass of the inner loop of the decryption schedule. -/
theorem decInner_ok {n : Nat} (enc : List (BitVec 32)) (hn : enc.length = n) (hn4 : n < 2 ^ 32) {q : Nat} (hq : 4 * q + 4 ≤ n) :
    ∀ (count j : Nat), j + count = 4 →
    decInner n enc (4 * q) (n - 4 * q - 4) count j (((List.range (4 * q + j)).map (decEntry n enc)) ++ List.replicate (n - (4 * q + j)) 0#32)
      = .ok (((List.range (4 * q + 4)).map (decEntry n enc)) ++ List.replicate (n - (4 * q + 4)) 0#32)
  | 0, j, hj => by
    have : j = 4 := by omega
    subst this; rfl
  | count + 1, j, hj => by
    unfold decInner
    have hx : ∀ x, (if 4 * q > 0 ∧ 4 * q + 4 < n then tdWord x else .ok x : Res (BitVec 32))
        = .ok (if 0 < 4 * q ∧ 4 * q + 4 < n then Model.AES.tdWord x else x) := by
      intro x
      by_cases h : 4 * q > 0 ∧ 4 * q + 4 < n
      · rw [if_pos h, if_pos h, tdWord_ok]
      · rw [if_neg h, if_neg h]
    rw [addN_ok (by omega), bind_ok, idx_ok 0#32 (by omega), bind_ok, addN_ok (by omega), bind_ok, hx, bind_ok, addN_ok (by omega), bind_ok,
      put_ok _ (by simp; omega), bind_ok]
    have hd : decEntry n enc (4 * q + j) = (if 0 < 4 * q ∧ 4 * q + 4 < n then Model.AES.tdWord (enc.getD (n - 4 * q - 4 + j) 0#32)
        else enc.getD (n - 4 * q - 4 + j) 0#32) := by
      unfold decEntry
      have h1 : (4 * q + j) / 4 * 4 = 4 * q := by omega
      have h2 : (4 * q + j) % 4 = j := by omega
      rw [h1, h2]
    rw [← hd]
    obtain ⟨m, hm⟩ : ∃ m, n - (4 * q + j) = m + 1 := ⟨n - (4 * q + j) - 1, by omega⟩
    have hs := set_append ((List.range (4 * q + j)).map (decEntry n enc)) 0#32 m (decEntry n enc (4 * q + j))
    rw [List.length_map, List.length_range] at hs
    rw [hm, hs]
    have hr : ((List.range (4 * q + j)).map (decEntry n enc)) ++ [decEntry n enc (4 * q + j)] = (List.range (4 * q + (j + 1))).map (decEntry n enc) := by
      rw [← Nat.add_assoc, List.range_succ, List.map_append]; rfl
    rw [hr, show m = n - (4 * q + (j + 1)) by omega]
    exact decInner_ok enc hn hn4 hq count (j + 1) (by omega)

theorem decLoop_ok {r : Nat} (enc : List (BitVec 32)) (hn : enc.length = 4 * r) (hr : 4 * r < 2 ^ 32) : ∀ (fuel q : Nat), q ≤ r → r ≤ q + fuel →
    decLoop (4 * r) enc fuel (4 * q) (((List.range (4 * q)).map (decEntry (4 * r) enc)) ++ List.replicate (4 * r - 4 * q) 0#32)
      = .ok ((List.range (4 * r)).map (decEntry (4 * r) enc))
  | 0, q, h1, h2 => by
    have : q = r := by omega
    subst this
    simp [decLoop]
  | fuel + 1, q, h1, h2 => by
    unfold decLoop
    by_cases h : 4 * q < 4 * r
    · rw [if_pos h, subN_ok (by omega), bind_ok, subN_ok (by omega), bind_ok]
      have := decInner_ok enc hn hr (q := q) (by omega) 4 0 rfl
      rw [Nat.add_zero] at this
      rw [this, bind_ok, addN_ok (by omega), bind_ok]
      exact decLoop_ok enc hn hr fuel (q + 1) (by omega) (by omega)
    · have : q = r := by omega
      subst this
      rw [if_neg h]; simp

theorem beWords_length : ∀ (m : Nat) (b : Bytes), b.length = 4 * m → (beWords b).length = m
  | 0, [], _ => rfl
  | m + 1, a :: b :: c :: d :: rest, h => by
    simp only [beWords, List.length_cons]
    rw [beWords_length m rest (by simp at h; omega)]
  | _ + 1, [], h => by simp at h
  | _ + 1, [_], h => by simp at h; omega
  | _ + 1, [_, _], h => by simp at h; omega
  | _ + 1, [_, _, _], h => by simp at h; omega
  | 0, _ :: _, h => by simp at h

theorem resize_eq {n : Nat} (l : List (BitVec 32)) (h : l.length ≤ n) : resize n l = l ++ List.replicate (n - l.length) 0#32 := by
  unfold resize
  exact List.take_of_length_le (by simp; omega)

theorem schedule_ok (key : Bytes) {nk nr : Nat} (hkey : key.length = 4 * nk) (hk : nk ≠ 0) (hle : nk ≤ (nr + 1) * 4)
    (hp : (nr + 1) * 4 ≤ 11 * nk) (hs : nr < 2 ^ 20) :
    (do
      let m ← addN 64 nr 1
      let n := m * 4
      let k ← subN n nk
      let enc ← schedLoop nk k nk (resize n (beWords key))
      let dec ← decLoop n enc n 0 (resize n [])
      .ok { encKs := enc, decKs := dec, nr := nr } : Res AES) = .ok (keySchedule key nk nr) := by
  rw [addN_ok (by omega), bind_ok]
  simp only []
  have hb := beWords_length nk key hkey
  rw [subN_ok hle, bind_ok, resize_eq _ (by omega), hb, schedLoop_ok hk _ _ _ hb (Nat.le_refl _) (by rwa [Nat.add_sub_cancel' hle]), bind_ok,
    resize_eq _ (Nat.zero_le _)]
  have hl : (Model.AES.schedLoop nk ((nr + 1) * 4 - nk) nk (beWords key)).length = 4 * (nr + 1) := by
    rw [model_schedLoop_length, hb]; omega
  have := decLoop_ok (r := nr + 1) _ hl (by omega) (4 * (nr + 1)) 0 (Nat.zero_le _) (by omega)
  rw [Nat.mul_comm (nr + 1) 4] at *
  simp only [Nat.mul_zero, List.range_zero, List.map_nil, Nat.sub_zero] at this
  simp only [List.length_nil, Nat.sub_zero]
  rw [this, bind_ok]
  unfold keySchedule
  rw [Nat.mul_comm (nr + 1) 4]

theorem new_ok (key : Bytes) : new key = Model.AES.new key := by
  unfold new Model.AES.new
  cases h : nkNr key.length with
  | none => rfl
  | some p =>
    obtain ⟨nk, nr⟩ := p
    unfold nkNr at h
    split at h <;> simp at h <;> (obtain ⟨rfl, rfl⟩ := h; simp only []; exact schedule_ok key (by omega) (by omega) (by omega) (by decide) (by omega))

/-- What the constructor makes: `nr + 1` round keys of four words in both directions. -/
theorem new_shape {key : Bytes} {a : AES} (h : Model.AES.new key = .ok a) :
    1 ≤ a.nr ∧ a.nr ≤ 14 ∧ a.encKs.length = 4 * (a.nr + 1) ∧ a.decKs.length = 4 * (a.nr + 1) := by
  unfold Model.AES.new at h
  cases hk : nkNr key.length with
  | none => rw [hk] at h; cases h
  | some p =>
    rw [hk] at h
    obtain ⟨nk, nr⟩ := p
    simp only [] at h
    injection h with h; subst h
    unfold nkNr at hk
    have hb : key.length = 4 * nk ∧ nk ≤ 8 ∧ 1 ≤ nr ∧ nr ≤ 14 ∧ 10 ≤ nr := by
      split at hk <;> simp at hk <;> (obtain ⟨rfl, rfl⟩ := hk; omega)
    have := beWords_length nk key hb.1
    simp only [keySchedule]
    refine ⟨hb.2.2.1, hb.2.2.2.1, ?_, ?_⟩
    · rw [model_schedLoop_length, this]; omega
    · rw [List.length_map, List.length_range]; omega

theorem loadWord_ok (a b c d : Byte) (pre rest : Bytes) {i : Nat} (h : pre.length = i) : loadWord (pre ++ a :: b :: c :: d :: rest) i = .ok (ofBe32 a b c d) := by
  subst h
  unfold loadWord
  rw [idx_ok' (x := a) (by simp), bind_ok, idx_ok' (x := b) (by rw [List.getElem?_append_right (by omega)]; simp), bind_ok,
    idx_ok' (x := c) (by rw [List.getElem?_append_right (by omega)]; simp), bind_ok,
    idx_ok' (x := d) (by rw [List.getElem?_append_right (by omega)]; simp), bind_ok]

theorem load_ok {b : Bytes} (h : b.length = 16) : load b = .ok (Model.AES.load b) := by
  match b, h with
  | [a0, a1, a2, a3, b0, b1, b2, b3, c0, c1, c2, c3, d0, d1, d2, d3], _ =>
    rfl

theorem keyQuad_ok {ks : List (BitVec 32)} {k : Nat} (h : k + 4 ≤ ks.length) (h' : ks.length < 2 ^ 32) : keyQuad ks k = .ok (Model.AES.keyQuad ks k) := by
  unfold keyQuad
  rw [addN_ok (by omega), bind_ok, idx_ok 0#32 (by omega), bind_ok, addN_ok (by omega), bind_ok, idx_ok 0#32 (by omega), bind_ok,
    addN_ok (by omega), bind_ok, idx_ok 0#32 (by omega), bind_ok, addN_ok (by omega), bind_ok, idx_ok 0#32 (by omega), bind_ok]
  rfl

theorem te_len : te0.length = 256 ∧ te1.length = 256 ∧ te2.length = 256 ∧ te3.length = 256 := by decide +kernel
theorem td_len : td0.length = 256 ∧ td1.length = 256 ∧ td2.length = 256 ∧ td3.length = 256 := by decide +kernel

theorem encRound_ok (k s : Quad) : encRound k s = .ok (Model.AES.encRound k s) := by
  obtain ⟨h0, h1, h2, h3⟩ := te_len
  unfold encRound line
  simp only [look_ok h0, look_ok h1, look_ok h2, look_ok h3, bind_ok]; rfl

theorem decRound_ok (k s : Quad) : decRound k s = .ok (Model.AES.decRound k s) := by
  obtain ⟨h0, h1, h2, h3⟩ := td_len
  unfold decRound line
  simp only [look_ok h0, look_ok h1, look_ok h2, look_ok h3, bind_ok]; rfl

theorem encLast_ok (k s : Quad) : encLast k s = .ok (Model.AES.encLast k s) := by
  have h : sbox0.length = 256 := by decide +kernel
  unfold encLast lastLine
  simp only [look_ok h, bind_ok]; rfl

theorem decLast_ok (k s : Quad) : decLast k s = .ok (Model.AES.decLast k s) := by
  have h : sbox1.length = 256 := by decide +kernel
  unfold decLast lastLine
  simp only [look_ok h, bind_ok]; rfl

theorem roundLoop_ok {f : Quad → Quad → Res Quad} {g : Quad → Quad → Quad} (hf : ∀ k s, f k s = .ok (g k s)) {ks : List (BitVec 32)}
    (h' : ks.length < 2 ^ 32) : ∀ (count k : Nat) (s : Quad), k + 4 * count ≤ ks.length →
    roundLoop f ks count k s = .ok (Model.AES.roundLoop g ks count k s) ∧ (Model.AES.roundLoop g ks count k s).1 = k + 4 * count
  | 0, k, s, _ => ⟨rfl, rfl⟩
  | count + 1, k, s, h => by
    unfold roundLoop Model.AES.roundLoop
    rw [keyQuad_ok (by omega) h', bind_ok, hf, bind_ok, addN_ok (by omega), bind_ok]
    have := roundLoop_ok hf h' count (k + 4) (g (Model.AES.keyQuad ks k) s) (by omega)
    exact ⟨this.1, by rw [this.2]; omega⟩

theorem block_ok {f l : Quad → Quad → Res Quad} {g m : Quad → Quad → Quad} (hf : ∀ k s, f k s = .ok (g k s)) (hl : ∀ k s, l k s = .ok (m k s))
    {ks : List (BitVec 32)} {nr : Nat} (h1 : 1 ≤ nr) (h2 : nr ≤ 14) (hk : ks.length = 4 * (nr + 1)) {b : Bytes} (hb : b.length = 16) :
    block f l ks nr b = .ok (store (m (Model.AES.keyQuad ks (Model.AES.roundLoop g ks (nr - 1) 4 (addKey (Model.AES.load b) (Model.AES.keyQuad ks 0))).1)
      (Model.AES.roundLoop g ks (nr - 1) 4 (addKey (Model.AES.load b) (Model.AES.keyQuad ks 0))).2)) := by
  unfold block
  have hs : ks.length < 2 ^ 32 := by omega
  have hr := roundLoop_ok hf hs (nr - 1) 4 (addKey (Model.AES.load b) (Model.AES.keyQuad ks 0)) (by omega)
  rw [load_ok hb, bind_ok, keyQuad_ok (by omega) hs, bind_ok, subN_ok h1, bind_ok, hr.1, bind_ok]
  simp only []
  rw [keyQuad_ok (by rw [hr.2]; omega) hs, bind_ok, hl, bind_ok]

theorem cipher_ok {key : Bytes} {a : AES} (h : Model.AES.new key = .ok a) : cipher a = Model.AES.cipher a := by
  obtain ⟨h1, h2, h3, h4⟩ := new_shape h
  unfold cipher Model.AES.cipher
  congr 1
  · funext b
    by_cases hb : b.length = 16
    · rw [if_pos hb, if_pos hb, block_ok encRound_ok encLast_ok h1 h2 h3 hb]; rfl
    · rw [if_neg hb, if_neg hb]
  · funext b
    by_cases hb : b.length = 16
    · rw [if_pos hb, if_pos hb, block_ok decRound_ok decLast_ok h1 h2 h4 hb]; rfl
    · rw [if_neg hb, if_neg hb]

end AES

end Verif.Model.Checked
