import Verif.Proof.MacChange
import Verif.Proof.Toy
import Verif.Props.MAC
import Verif.Props.ZUC
import Verif.Props.Collision

/-!
# C85: MACs of changed messages and keys

`digestOf d s chunks` is the tag which the MAC object `s` returns after the message has been written in these chunks.
-/

namespace Verif.Props
open Verif.Model Verif.Spec

variable {S : Type} {d : Digest S} {H : Bytes → Bytes} {b size : Nat} {Abs Chk : S → Bytes → Prop}

private theorem digestOf_run {T : Type} {d : Digest T} {s s' : T} {chunks : List Bytes} {x : Bytes}
    (h : runDigest d s (chunks.map DOp.write ++ [.checksum]) = .ok (s', [x])) : digestOf d s chunks = .ok x := by
  induction chunks generalizing s with
  | nil =>
    simp only [List.map_nil, List.nil_append, runDigest, bind, Except.bind] at h
    simp only [digestOf, writeAll, bind, Except.bind]
    cases hc : d.checksum s with
    | error e => rw [hc] at h; cases h
    | ok r => rw [hc] at h; injection h with h; injection h with _ h; injection h with h; rw [← h]
  | cons y l ih =>
    simp only [List.map_cons, List.cons_append, runDigest, bind, Except.bind] at h
    cases hw : d.write s y with
    | error e => rw [hw] at h; cases h
    | ok s1 =>
      rw [hw] at h
      have := ih h
      simp only [digestOf, writeAll, bind, Except.bind, hw] at this ⊢
      exact this

/-! ## HMAC -/

private theorem hmac_tag (L : LawfulDigest d H (some b) size Abs Chk) (hs : size ≤ b) (hb : b < 2 ^ 63) (df : S) (hdf : Abs df [])
    (key : Bytes) (hk : key.length < 2 ^ 64) (s : HMAC.State S) (hn : HMAC.new d key df = .ok s) (m : List Bytes) (hm : b + m.flatten.length < 2 ^ 64) :
    digestOf (HMAC.digest d) s m = .ok (hmac H b key m.flatten) := by
  obtain ⟨s0, s', e1, e2⟩ := C31_hmac_history L hs hb df [] (Or.inl hdf) key hk (m.map .write ++ [.checksum]) (by rw [written_chunks]; exact hm)
  rw [hn] at e1; injection e1 with e1; subst e1
  rw [idealTags_chunks, List.nil_append] at e2
  exact digestOf_run e2

/-- C85 (HMAC): a key shorter than a block and the same key with zeros behind it are the same key: every history of calls returns the same tags. -/
theorem C85_hmac_key_zeros (L : LawfulDigest d H (some b) size Abs Chk) (hs : size ≤ b) (hb : b < 2 ^ 63) (df : S) (hdf : Abs df [])
    (key : Bytes) (z : Nat) (hz : key.length + z ≤ b) (ops : List DOp) (hl : b + written ops < 2 ^ 64) :
    ∃ s s1 s' s1' tags, HMAC.new d key df = .ok s ∧ HMAC.new d (key ++ List.replicate z 0#8) df = .ok s1 ∧
      runDigest (HMAC.digest d) s ops = .ok (s', tags) ∧ runDigest (HMAC.digest d) s1 ops = .ok (s1', tags) := by
  obtain ⟨s, s', e1, e2⟩ := C31_hmac_history L hs hb df [] (Or.inl hdf) key (by omega) ops hl
  obtain ⟨s1, s1', e3, e4⟩ := C31_hmac_history L hs hb df [] (Or.inl hdf) (key ++ List.replicate z 0#8)
    (by rw [List.length_append, List.length_replicate]; omega) ops hl
  have hk : hmacK0 H b (key ++ List.replicate z 0#8) = hmacK0 H b key := by
    unfold hmacK0
    have h2 : (key ++ List.replicate z 0#8).length = key.length + z := by rw [List.length_append, List.length_replicate]
    simp only [h2, if_pos hz, if_pos (show key.length ≤ b by omega)]
    rw [List.append_assoc, List.replicate_append_replicate]
    congr 2; omega
  have hh : hmac H b (key ++ List.replicate z 0#8) = hmac H b key := by funext m; simp only [hmac, hk]
  rw [hh] at e4
  exact ⟨s, s1, s', s1', _, e1, e3, e2, e4⟩

/-- C85 (HMAC): a key longer than a block and its hash are the same key. -/
theorem C85_hmac_key_hash (L : LawfulDigest d H (some b) size Abs Chk) (hs : size ≤ b) (hb : b < 2 ^ 63) (df : S) (hdf : Abs df [])
    (key : Bytes) (hz : b < key.length) (hk : key.length < 2 ^ 64) (ops : List DOp) (hl : b + written ops < 2 ^ 64) :
    ∃ s s1 s' s1' tags, HMAC.new d key df = .ok s ∧ HMAC.new d (H key) df = .ok s1 ∧
      runDigest (HMAC.digest d) s ops = .ok (s', tags) ∧ runDigest (HMAC.digest d) s1 ops = .ok (s1', tags) := by
  have hlen := L.length key
  obtain ⟨s, s', e1, e2⟩ := C31_hmac_history L hs hb df [] (Or.inl hdf) key hk ops hl
  obtain ⟨s1, s1', e3, e4⟩ := C31_hmac_history L hs hb df [] (Or.inl hdf) (H key) (by omega) ops hl
  have hk : hmacK0 H b (H key) = hmacK0 H b key := by
    unfold hmacK0
    simp only [if_pos (show (H key).length ≤ b by omega), if_neg (show ¬ key.length ≤ b by omega)]
  have hh : hmac H b (H key) = hmac H b key := by funext m; simp only [hmac, hk]
  rw [hh] at e4
  exact ⟨s, s1, s', s1', _, e1, e3, e2, e4⟩

/-- C85 (HMAC): apart from the two cases above, equal tags mean a collision of the hash function, between the two inner or the two outer inputs. `k` and `k'` are
the keys brought to the length of a block. -/
theorem C85_hmac_collision (L : LawfulDigest d H (some b) size Abs Chk) (hs : size ≤ b) (hb : b < 2 ^ 63) (df : S) (hdf : Abs df [])
    (key key' k k' : Bytes) (hk : key.length < 2 ^ 64) (hk' : key'.length < 2 ^ 64) (h0 : k = hmacK0 H b key) (h0' : k' = hmacK0 H b key')
    (s s' : HMAC.State S) (hn : HMAC.new d key df = .ok s) (hn' : HMAC.new d key' df = .ok s') (m m' : List Bytes)
    (hm : b + m.flatten.length < 2 ^ 64) (hm' : b + m'.flatten.length < 2 ^ 64) (hne : (k, m.flatten) ≠ (k', m'.flatten))
    (he : digestOf (HMAC.digest d) s m = digestOf (HMAC.digest d) s' m') :
    ∃ x y, x ≠ y ∧ H x = H y ∧
      ((x = k.map (· ^^^ 0x36#8) ++ m.flatten ∧ y = k'.map (· ^^^ 0x36#8) ++ m'.flatten) ∨
       (x = k.map (· ^^^ 0x5c#8) ++ H (k.map (· ^^^ 0x36#8) ++ m.flatten) ∧ y = k'.map (· ^^^ 0x5c#8) ++ H (k'.map (· ^^^ 0x36#8) ++ m'.flatten))) := by
  rw [hmac_tag L hs hb df hdf key hk s hn m hm, hmac_tag L hs hb df hdf key' hk' s' hn' m' hm'] at he
  injection he with he
  have hlen : ∀ key : Bytes, (hmacK0 H b key).length = b := by
    intro key
    simp only [hmacK0]
    rw [List.length_append, List.length_replicate]
    split
    · omega
    · rw [L.length]; omega
  have hx : ∀ (key : Bytes) (x : Byte), xorBytes (hmacK0 H b key) (List.replicate b x) = (hmacK0 H b key).map (· ^^^ x) :=
    fun key x => HMAC.xor_replicate _ _ _ (hlen key)
  simp only [hmac, hx] at he
  rw [← h0, ← h0'] at he
  have hl : k.length = k'.length := by rw [h0, h0', hlen, hlen]
  by_cases hin : k.map (· ^^^ 0x5c#8) ++ H (k.map (· ^^^ 0x36#8) ++ m.flatten) = k'.map (· ^^^ 0x5c#8) ++ H (k'.map (· ^^^ 0x36#8) ++ m'.flatten)
  · obtain ⟨h1, h2⟩ := List.append_inj hin (by rw [List.length_map, List.length_map, hl])
    have hkk : k = k' := by
      have h3 := congrArg (List.map (· ^^^ 0x5c#8)) h1
      simpa [List.map_map, Function.comp_def, BitVec.xor_assoc] using h3
    refine ⟨_, _, fun h3 => hne ?_, h2, .inl ⟨rfl, rfl⟩⟩
    subst hkk
    rw [List.append_cancel_left h3]
  · exact ⟨_, _, hin, he, .inr ⟨rfl, rfl⟩⟩

/-- What a new HMAC-MD5 object with this key returns. -/
private def hmacMd5 (key : Bytes) (m : List Bytes) : Option Bytes :=
  match HMAC.new MD5.digest key MD5.new with
  | .ok s => (digestOf (HMAC.digest MD5.digest) s m).toOption
  | .error _ => none

/-- Non-vacuity: HMAC-MD5 with a key longer than a block, with its hash (MD5 of eighty bytes 0xaa), and with zeros behind that; and with another key. -/
example : hmacMd5 (List.replicate 80 0xaa#8) [[1#8], [2#8]] = hmacMd5 (((digestOf MD5.digest MD5.new [List.replicate 80 0xaa#8]).toOption.getD []) ++ [0#8, 0#8]) [[1#8, 2#8]] ∧
    (hmacMd5 (List.replicate 80 0xaa#8) [[1#8], [2#8]]).isSome = true ∧
    hmacMd5 (List.replicate 80 0xaa#8) [[1#8], [2#8]] ≠ hmacMd5 (List.replicate 79 0xaa#8) [[1#8, 2#8]] := by
  decide +kernel

/-! ## CMAC -/

theorem cmac_of_new (c : BlockCipher) (E D : Bytes → Bytes) (L : Lawful c E D) (b rb : Nat) (hcb : c.blockSize = some b)
    (h : (b = 8 ∧ rb = 0x1b) ∨ (b = 16 ∧ rb = 0x87)) (s : CMAC.State) (hs : CMAC.new c = .ok s) (m : List Bytes) :
    digestOf CMAC.digest s m = .ok (Spec.CMAC.mac E b rb m.flatten) := by
  obtain ⟨s0, s', e1, e2⟩ := C32_cmac_history c E D L b rb hcb h (m.map .write ++ [.checksum])
  rw [hs] at e1; injection e1 with e1; subst e1
  rw [idealTags_chunks, List.nil_append] at e2
  exact digestOf_run e2

/-- C85 (CMAC): messages with the same number of blocks that differ in exactly one block, and whose last blocks are both complete or both incomplete, have
different tags. -/
theorem C85_cmac_one_block (c : BlockCipher) (E D : Bytes → Bytes) (L : Lawful c E D) (b : Nat) (hcb : c.blockSize = some b) (h : b = 8 ∨ b = 16)
    (s : CMAC.State) (hs : CMAC.new c = .ok s) (x y : List Bytes) (n : Nat) (hx : Spec.CMAC.blocks b x.flatten = n) (hy : Spec.CMAC.blocks b y.flatten = n)
    (hc : (Spec.CMAC.block b x.flatten (n - 1)).length = b ↔ (Spec.CMAC.block b y.flatten (n - 1)).length = b)
    (k : Nat) (hk : k < n) (hsame : ∀ i, i < n → i ≠ k → Spec.CMAC.block b x.flatten i = Spec.CMAC.block b y.flatten i)
    (hdiff : Spec.CMAC.block b x.flatten k ≠ Spec.CMAC.block b y.flatten k) : digestOf CMAC.digest s x ≠ digestOf CMAC.digest s y := by
  obtain ⟨rb, hrb⟩ : ∃ rb, (b = 8 ∧ rb = 0x1b) ∨ (b = 16 ∧ rb = 0x87) := by
    rcases h with h | h
    · exact ⟨0x1b, .inl ⟨h, rfl⟩⟩
    · exact ⟨0x87, .inr ⟨h, rfl⟩⟩
  rw [cmac_of_new c E D L b rb hcb hrb s hs, cmac_of_new c E D L b rb hcb hrb s hs]
  intro e
  injection e with e
  have hbs : c.bs = b := by rw [BlockCipher.bs, hcb]; rfl
  subst hbs
  exact CMAC.mac_one_block L rb (hx.trans hy.symm) (by rw [hx, hy]; exact hc) k (by omega) (by rw [hx]; exact hsame) hdiff e

/-- C85 (CMAC): whatever is changed inside one block of a message, without changing its length, changes the tag. -/
theorem C85_cmac_change (c : BlockCipher) (E D : Bytes → Bytes) (L : Lawful c E D) (b : Nat) (hcb : c.blockSize = some b) (h : b = 8 ∨ b = 16)
    (s : CMAC.State) (hs : CMAC.new c = .ok s) (x y : List Bytes) (hl : x.flatten.length = y.flatten.length) (hne : x.flatten ≠ y.flatten)
    (k : Nat) (hd : ∀ i, i / b ≠ k → x.flatten.getD i 0#8 = y.flatten.getD i 0#8) : digestOf CMAC.digest s x ≠ digestOf CMAC.digest s y := by
  have hb0 : 0 < b := by omega
  have hbl : ∀ i, i ≠ k → Spec.CMAC.block b x.flatten i = Spec.CMAC.block b y.flatten i := by
    intro i hi
    apply List.ext_getElem?
    intro r
    simp only [Spec.CMAC.block, List.getElem?_take, List.getElem?_drop]
    split
    · rename_i hr
      have h1 := hd (i * b + r) (by rw [Nat.mul_comm, Nat.mul_add_div hb0, Nat.div_eq_of_lt hr]; exact hi)
      simp only [List.getD_eq_getElem?_getD] at h1
      by_cases h2 : i * b + r < x.flatten.length
      · rw [List.getElem?_eq_getElem h2, List.getElem?_eq_getElem (by omega)] at h1 ⊢
        exact congrArg some h1
      · rw [List.getElem?_eq_none (by omega), List.getElem?_eq_none (by omega)]
    · rfl
  have hn : Spec.CMAC.blocks b y.flatten = Spec.CMAC.blocks b x.flatten := by
    unfold Spec.CMAC.blocks
    rw [hl]
    congr 1
    simp only [← List.length_eq_zero_iff, hl]
  have hlb : ∀ i, (Spec.CMAC.block b x.flatten i).length = (Spec.CMAC.block b y.flatten i).length := by
    intro i; simp only [Spec.CMAC.block, List.length_take, List.length_drop, hl]
  have hbk : Spec.CMAC.block b x.flatten k ≠ Spec.CMAC.block b y.flatten k := by
    intro hk
    apply hne
    apply List.ext_getElem?
    intro i
    have h1 : Spec.CMAC.block b x.flatten (i / b) = Spec.CMAC.block b y.flatten (i / b) := by
      by_cases hi : i / b = k
      · rw [hi, hk]
      · exact hbl _ hi
    have h2 := congrArg (fun l : Bytes => l[i % b]?) h1
    simp only [Spec.CMAC.block, List.getElem?_take, if_pos (Nat.mod_lt i hb0), List.getElem?_drop] at h2
    rwa [Nat.mul_comm, Nat.div_add_mod] at h2
  have hk : k < Spec.CMAC.blocks b x.flatten := by
    by_contra hk
    apply hbk
    have : x.flatten.length ≤ k * b := by
      rcases CMAC.mid_bounds b hb0 x.flatten with h1 | h1
      · have h3 : 0 < Spec.CMAC.blocks b x.flatten := by
          unfold Spec.CMAC.blocks; split
          · omega
          · rename_i h4
            have := List.length_pos_iff.2 h4
            exact Nat.div_pos (by omega) hb0
        have h2 : (Spec.CMAC.blocks b x.flatten - 1 + 1) * b ≤ k * b := Nat.mul_le_mul_right _ (by omega)
        rw [Nat.succ_mul] at h2; omega
      · rw [h1.2]; simp
    simp only [Spec.CMAC.block]
    rw [List.drop_eq_nil_of_le this, List.drop_eq_nil_of_le (by omega)]
  exact C85_cmac_one_block c E D L b hcb h s hs x y _ rfl hn (by rw [hlb]) k hk (fun i _ hi => hbl i hi) hbk

/-- What a new CMAC object over a cipher with blocks of 8 bytes returns. -/
private def cmacToy (m : List Bytes) : Option Bytes :=
  match CMAC.new (Toy.cipher 8) with
  | .ok s => (digestOf CMAC.digest s m).toOption
  | .error _ => none

/-- Non-vacuity: the tags of two messages of three blocks that differ in the second one, and of two incomplete last blocks of different lengths. -/
example : cmacToy [List.replicate 20 1#8] ≠ cmacToy [List.replicate 9 1#8, [2#8], List.replicate 10 1#8] ∧ cmacToy [[1#8]] ≠ cmacToy [[1#8], [0#8]] ∧
    (cmacToy [[1#8]]).isSome = true := by decide +kernel

/-! ## ZUC -/

private theorem be32_xor3 (h1 h2 h3 u v : BitVec 32) :
    be32 (h1 ^^^ h2 ^^^ h3 ^^^ u ^^^ v) = xorBytes (xorBytes (be32 (h1 ^^^ u ^^^ v)) (be32 (h2 ^^^ u ^^^ v))) (be32 (h3 ^^^ u ^^^ v)) := by
  have e : h1 ^^^ h2 ^^^ h3 ^^^ u ^^^ v = (h1 ^^^ u ^^^ v) ^^^ (h2 ^^^ u ^^^ v) ^^^ (h3 ^^^ u ^^^ v) := by
    apply BitVec.eq_of_getLsbD_eq; intro j _; simp only [BitVec.getLsbD_xor]
    cases h1.getLsbD j <;> cases h2.getLsbD j <;> cases h3.getLsbD j <;> cases u.getLsbD j <;> cases v.getLsbD j <;> rfl
  rw [e]
  simp [be32, xorBytes, BitVec.extractLsb'_xor]


/-- C85 (128-EIA3): with the same key, count, bearer and direction, the tags of three messages of the same length give the tag of a fourth one. So these
parameters must never be used twice. -/
theorem C85_eia3_linear (count : BitVec 32) (bearer : Byte) (direction : Bool) (ck : Bytes) (s : ZUCMac.State)
    (hs : ZUCMac.fromSlice count bearer direction ck = .ok s) (x y z : Bytes) (hy : y.length = x.length) (hz : z.length = x.length)
    (tx ty tz : Bytes) (hx : digestOf ZUCMac.digest s [x] = .ok tx) (hy' : digestOf ZUCMac.digest s [y] = .ok ty)
    (hz' : digestOf ZUCMac.digest s [z] = .ok tz) :
    digestOf ZUCMac.digest s [xorBytes (xorBytes x y) z] = .ok (xorBytes (xorBytes tx ty) tz) := by
  have hk : ck.length = 16 := by
    by_contra hk
    unfold ZUCMac.fromSlice at hs
    rw [if_pos hk] at hs; cases hs
  have tag : ∀ m : Bytes, digestOf ZUCMac.digest s [m] =
      .ok (Spec.ZUC.eia3 ck (Spec.ZUC.eia3Iv count (bearer.setWidth 5) (BitVec.ofBool direction)) m) := by
    intro m
    obtain ⟨s0, e0, e1, -⟩ := C40_mac_partial count bearer direction ck hk [] m
    have e2 : s0 = s := Except.ok.inj (e0.symm.trans hs)
    rw [e2] at e1
    clear e0 hs
    cases hr : runDigest ZUCMac.digest s [.write m, .checksum] with
    | error e => rw [hr] at e1; cases e1
    | ok r =>
      rw [hr] at e1
      obtain ⟨s', xs⟩ := r
      simp only [outputs, Option.some.injEq] at e1
      subst e1
      exact digestOf_run (chunks := [m]) hr
  rw [tag] at hx hy' hz' ⊢
  rw [← Except.ok.inj hx, ← Except.ok.inj hy', ← Except.ok.inj hz']
  congr 1
  have hl : (xorBytes (xorBytes x y) z).length = x.length := by simp [xorBytes, hy, hz]
  simp only [Spec.ZUC.eia3, hl, hy, hz, Spec.ZUC.hash_linear _ _ hy hz, be32_xor3]

/-- What a new object of the ZUC MAC returns for a message written at once. -/
private def eia3Zero (m : Bytes) : Option Bytes :=
  match ZUCMac.fromSlice 5#32 3#8 true (List.replicate 16 7#8) with
  | .ok s => (digestOf ZUCMac.digest s [m]).toOption
  | .error _ => none

example : (eia3Zero [1#8, 2#8, 3#8, 4#8, 5#8]).isSome = true ∧ eia3Zero [1#8, 2#8, 3#8, 4#8, 5#8] ≠ eia3Zero [1#8, 2#8, 3#8, 4#8, 4#8] := by decide +kernel

end Verif.Props
