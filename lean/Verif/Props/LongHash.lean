import Verif.Proof.LongHash
import Verif.Props.Collision

/-!
# C114: long messages, on machines with 64-bit and with 32-bit words

The objects of MD5, SHA-1, SHA-2 and SM3 count the bytes written to them in a machine word.
-/

namespace Verif.Props
open Verif.Model Verif.Spec
open Verif.Spec.LongHash (Name standard core padded paddedLen field blockLen fieldLen)

namespace LongHash

theorem field_length (a : Name) (bits : Nat) : (field a bits).length = fieldLen a := by
  cases a <;> simp [field, fieldLen, MD.le, MD.be]

theorem standard_eq (a : Name) (m : Bytes) : standard a m = core a (padded a (8 * m.length) m) := by
  cases a <;> simp only [standard, core, padded, field, fieldLen, blockLen, MD5.hash, SHA.sha1, SHA.sha224, SHA.sha256, SHA.sha384,
    SHA.sha512, SHA.sha512t, SM3.hash, SHA.hashRegs, MD.pad, be_length, show (MD.le 8 (8 * m.length)).length = 8 by simp [MD.le]] <;> rfl

theorem padded_length (a : Name) (bits : Nat) (m : Bytes) : (padded a bits m).length = paddedLen a m.length := by
  have hb : 0 < blockLen a := by cases a <;> decide
  rw [paddedLen, ← LongHash.total_len _ _ _ hb]
  simp only [padded, List.length_append, List.length_singleton, List.length_replicate, field_length]

theorem padded_inj (a : Name) (m : Bytes) (x y : Nat) (hx : x < 2 ^ 64) (hy : y < 2 ^ 64) (h : padded a x m = padded a y m) : x = y := by
  have h' := List.append_cancel_left h
  have h8 : (2 : Nat) ^ 64 = 256 ^ 8 := by decide
  have h16 : (2 : Nat) ^ 64 < 256 ^ 16 := by decide
  cases a
  case md5 => exact le_inj (by omega) (by omega) h'
  all_goals first
    | exact be_inj (n := 8) (by omega) (by omega) h'
    | exact be_inj (n := 16) (by omega) (by omega) h'

theorem le_paddedLen (a : Name) (n : Nat) : n < paddedLen a n := by
  have := LongHash.total_len (blockLen a) (fieldLen a) n (by cases a <;> decide)
  rw [paddedLen]; omega

end LongHash

/-- The specification used below: the standard's hash is `core` of the message padded with its own length in bits, and the padded message is
`paddedLen` bytes long. -/
theorem C114_specification (a : Name) (m : Bytes) :
    standard a m = core a (padded a (8 * m.length) m) ∧ (padded a (8 * m.length) m).length = paddedLen a m.length :=
  ⟨LongHash.standard_eq a m, LongHash.padded_length a _ m⟩

/-- On a machine with 64-bit words, in both kinds of build, the digest of every message written in any pieces is that of the standard, as long as
the padded message is shorter than `2^64` bytes. -/
theorem C114_width64 (debug : Bool) (a : Name) (ms : List Bytes) (h : paddedLen a ms.flatten.length < 2 ^ 64) :
    Model.LongHash.run 64 debug a ms = .ok (standard a ms.flatten) := by
  have hn := LongHash.le_paddedLen a ms.flatten.length
  rw [Model.LongHash.run_eq 64 debug (by decide) (by decide), if_neg (by omega), LongHash.standard_eq]
  have hm : ms.flatten.length % 2 ^ 64 = ms.flatten.length := Nat.mod_eq_of_lt (by omega)
  unfold Model.LongHash.claimed
  split
  · rename_i ha
    subst ha
    rw [padded, padded, field]
    rw [← MD.le64_field, ← MD.le64_field, show BitVec.ofNat 64 (8 * ms.flatten.length % 2 ^ 64) = BitVec.ofNat 64 (8 * ms.flatten.length) by
      apply BitVec.eq_of_toNat_eq; simp only [BitVec.toNat_ofNat]; omega]
  · rw [hm]

/-- The full statement on a machine with 32-bit words would be that of `C114_width64`, for every message the standard allows. What holds: the digest is
that of the standard when the padded message is shorter than `2^32` bytes and, for MD5, the message is shorter than `2^29` bytes. -/
theorem C114_width32_partial (debug : Bool) (a : Name) (ms : List Bytes) (h : paddedLen a ms.flatten.length < 2 ^ 32)
    (h5 : a = .md5 → ms.flatten.length < 2 ^ 29) : Model.LongHash.run 32 debug a ms = .ok (standard a ms.flatten) := by
  have hn := LongHash.le_paddedLen a ms.flatten.length
  rw [Model.LongHash.run_eq 32 debug (by decide) (by decide), if_neg (by omega), LongHash.standard_eq]
  unfold Model.LongHash.claimed
  split
  · rename_i ha
    have := h5 ha
    rw [Nat.mod_eq_of_lt (show 8 * ms.flatten.length < 2 ^ 32 by omega)]
  · rw [Nat.mod_eq_of_lt (show ms.flatten.length < 2 ^ 32 by omega)]

/-- On either machine, a debug build panics exactly when the padded message has `2^W` bytes or more; a release build never does. -/
theorem C114_panics (W : Nat) (hW : W = 32 ∨ W = 64) (debug : Bool) (a : Name) (ms : List Bytes) :
    Model.LongHash.run W debug a ms = .error .panic ↔ debug = true ∧ 2 ^ W ≤ paddedLen a ms.flatten.length := by
  rw [Model.LongHash.run_eq W debug (by omega) (by omega)]
  split
  · rename_i h; exact ⟨fun _ => h, fun _ => rfl⟩
  · rename_i h; exact ⟨fun e => (by cases e), fun e => absurd e h⟩

/-- So a 32-bit debug build panics on messages of 6 GB which the standards allow, although every single piece is a slice of fewer than `2^31` bytes. -/
theorem C114_debug_refuted (a : Name) : ∃ ms : List Bytes, (∀ x ∈ ms, x.length < 2 ^ 31) ∧ 8 * ms.flatten.length < 2 ^ 64 ∧
    Model.LongHash.run 32 true a ms = .error .panic := by
  obtain ⟨k, hk⟩ : ∃ k, k = 2 ^ 31 - 1 := ⟨_, rfl⟩
  have hl : (List.replicate 3 (List.replicate k (0#8 : Byte))).flatten.length = 3 * k := by
    rw [List.length_flatten, List.map_replicate, List.length_replicate, List.sum_replicate_nat]
  refine ⟨List.replicate 3 (List.replicate k 0#8), fun x hx => ?_, ?_, ?_⟩
  · rw [List.eq_of_mem_replicate hx, List.length_replicate]; omega
  · rw [hl]; omega
  · rw [C114_panics 32 (Or.inl rfl), hl]
    have := LongHash.le_paddedLen a (3 * k)
    exact ⟨rfl, by omega⟩

/-- What a release build returns for every message: the length field says `8 * (n mod 2^W)` bits, in MD5 `8 * n mod 2^W`. -/
theorem C114_release (W : Nat) (hW : W = 32 ∨ W = 64) (a : Name) (ms : List Bytes) :
    Model.LongHash.run W false a ms = .ok (core a (padded a
      (if a = .md5 then 8 * ms.flatten.length % 2 ^ W else 8 * (ms.flatten.length % 2 ^ W)) ms.flatten)) := by
  rw [Model.LongHash.run_eq W false (by omega) (by omega), if_neg (by simp)]
  rfl

/-- On a 32-bit machine a release build hashes the wrong text for every message of `2^32` bytes or more, MD5 already from `2^29` bytes (512 MiB) on: the
text hashed and the padded message of the standard have the same length and are different. The digest is right only if these two texts collide. -/
theorem C114_release_refuted (a : Name) (ms : List Bytes) (h : 2 ^ 32 ≤ ms.flatten.length ∨ a = .md5 ∧ 2 ^ 29 ≤ ms.flatten.length)
    (h64 : 8 * ms.flatten.length < 2 ^ 64) :
    ∃ t t', t ≠ t' ∧ t.length = t'.length ∧ Model.LongHash.run 32 false a ms = .ok (core a t) ∧ standard a ms.flatten = core a t' := by
  refine ⟨_, _, ?_, ?_, C114_release 32 (Or.inl rfl) a ms, LongHash.standard_eq a _⟩
  · intro e
    have h1 := Nat.mod_lt ms.flatten.length (show 0 < 2 ^ 32 by decide)
    have h2 := Nat.mod_lt (8 * ms.flatten.length) (show 0 < 2 ^ 32 by decide)
    have := LongHash.padded_inj a _ _ _ (by split <;> omega) h64 e
    split at this
    · omega
    · rename_i ha
      rcases h with h | h
      · omega
      · exact ha h.1
  · rw [LongHash.padded_length, LongHash.padded_length]

/-- MD5 on a 32-bit machine, both builds: one write of 512 MiB, well within the longest slice, goes through without a panic with the length field of the
empty message. -/
theorem C114_md5_refuted (debug : Bool) (m : Bytes) (h : m.length = 2 ^ 29) :
    Model.LongHash.run 32 debug .md5 [m] = .ok (core .md5 (padded .md5 0 m)) ∧ standard .md5 m = core .md5 (padded .md5 (2 ^ 32) m) ∧
      padded .md5 0 m ≠ padded .md5 (2 ^ 32) m := by
  have hf : ([m] : List Bytes).flatten = m := by simp
  refine ⟨?_, ?_, fun e => ?_⟩
  · rw [Model.LongHash.run_eq 32 debug (by decide) (by decide), hf, h, if_neg (by rintro ⟨-, h1⟩; revert h1; decide)]
    rfl
  · rw [LongHash.standard_eq, h, show 8 * 2 ^ 29 = 2 ^ 32 by decide]
  · have := LongHash.padded_inj .md5 m _ _ (by decide) (by decide) e
    omega

namespace LongHash

theorem write64 {D : Type} (p : MD.Params D) : Model.LongHash.write 64 false p = MD.write p := by
  funext s x
  have : Model.LongHash.addLen 64 false s.len x.length = .ok (s.len + BitVec.ofNat 64 x.length) := by
    rw [Model.LongHash.addLen_ok 64 false _ _ (Or.inl rfl)]
    congr 1
    apply BitVec.eq_of_toNat_eq
    rw [BitVec.toNat_ofNat, BitVec.toNat_add, BitVec.toNat_ofNat]
    omega
  rw [Model.LongHash.write, this]
  rfl

theorem finish64 {D : Type} (p : MD.Params D) (off : Nat) (e : BitVec 64 → Bytes) (c : Bool) :
    Model.LongHash.finish 64 false p off e c = MD.finish p off e c := by
  funext s
  unfold Model.LongHash.finish MD.finish
  rw [write64]

theorem finishMD5_64 : Model.LongHash.finishMD5 64 false = Model.MD5.finish := by
  funext s
  unfold Model.LongHash.finishMD5 Model.MD5.finish
  rw [write64]
  have h1 : ((55 + 2 ^ 64 - s.len.toNat) % 2 ^ 64) = (55#64 - s.len).toNat := by
    rw [BitVec.toNat_sub, BitVec.toNat_ofNat]
    have := s.len.isLt
    omega
  have h2 : BitVec.ofNat 64 ((s.len.toNat * 2 ^ 3) % 2 ^ 64) = s.len <<< 3 := by
    apply BitVec.eq_of_toNat_eq
    rw [BitVec.toNat_ofNat, BitVec.toNat_shiftLeft, Nat.shiftLeft_eq]
    omega
  rw [h1, h2]

/-- The digest of a message written in pieces to a new object of the other properties. -/
def objects : Name → List Bytes → Res Bytes
  | .md5 => digestOf Model.MD5.digest Model.MD5.new
  | .sha1 => digestOf Model.SHA1.digest Model.SHA1.new
  | .sha224 => digestOf Model.SHA2.sha224 (SHA2.new256 SHA2.init224)
  | .sha256 => digestOf Model.SHA2.sha256 (SHA2.new256 SHA2.init256)
  | .sha384 => digestOf Model.SHA2.sha384 (SHA2.new512 SHA2.init384)
  | .sha512 => digestOf Model.SHA2.sha512 (SHA2.new512 SHA2.init512)
  | .sha512t224 => digestOf Model.SHA2.sha512t224 (SHA2.new512 SHA2.init512t224)
  | .sha512t256 => digestOf Model.SHA2.sha512t256 (SHA2.new512 SHA2.init512t256)
  | .sm3 => digestOf Model.SM3.digest Model.SM3.new

theorem foldlM_writeAll {S : Type} (d : Digest S) (s : S) (ms : List Bytes) : ms.foldlM d.write s = writeAll d s ms := by
  induction ms generalizing s with
  | nil => rfl
  | cons x ms ih =>
    rw [List.foldlM_cons, writeAll]
    cases d.write s x with
    | error e => rfl
    | ok s' => exact ih s'

theorem hash_objects {D : Type} (p : MD.Params D) (new : MD.State D) (fin : MD.State D → Res (MD.State D)) (out : D → Bytes)
    (d : Digest (MD.State D)) (hw : d.write = MD.write p) (hc : ∀ s, d.checksum s = (fin s >>= fun s => .ok (s, out s.digest))) (ms : List Bytes) :
    Model.LongHash.hash 64 false p new fin out ms = digestOf d new ms := by
  unfold Model.LongHash.hash digestOf
  rw [write64, ← foldlM_writeAll, hw]
  cases ms.foldlM (MD.write p) new with
  | error e => rfl
  | ok s =>
    simp only [bind, Except.bind, hc]
    cases fin s <;> rfl

end LongHash

/-- The 64-bit release build is the one all other properties are about: on every message, of any length, the objects behave alike. -/
theorem C114_same_objects (a : Name) (ms : List Bytes) : Model.LongHash.run 64 false a ms = LongHash.objects a ms := by
  cases a <;>
    simp only [Model.LongHash.run, LongHash.objects, LongHash.finish64, LongHash.finishMD5_64]
  case md5 => exact LongHash.hash_objects _ _ _ _ _ rfl (fun _ => rfl) ms
  case sha1 => exact LongHash.hash_objects _ _ _ _ _ rfl (fun _ => rfl) ms
  case sm3 => exact LongHash.hash_objects _ _ _ _ _ rfl (fun _ => rfl) ms
  all_goals
    refine LongHash.hash_objects _ _ _ _ _ rfl (fun s => ?_) ms
    first
      | simp only [SHA2.sha224, SHA2.sha256, SHA2.digest256, SHA2.checksum256, bind, Except.bind]
        cases Model.MD.finish SHA2.params256 56 (fun len => be64 (len <<< 3)) true s <;> rfl
      | simp only [SHA2.sha384, SHA2.sha512, SHA2.sha512t224, SHA2.sha512t256, SHA2.digest512, SHA2.checksum512, bind, Except.bind]
        cases Model.MD.finish SHA2.params512 112 (fun len => be128 (len.setWidth 128 <<< 3)) false s <;> rfl

namespace LongHash

theorem fold_length (data : Bytes) (l : List Nat) (s : ZUCMac.State) : (l.foldl (ZUCMac.step data) s).length = s.length := by
  induction l generalizing s with
  | nil => rfl
  | cons i l ih =>
    rw [List.foldl_cons, ih]
    simp only [ZUCMac.step]
    split <;> split <;> rfl

theorem fold_congr (a b : Bytes) (l : List Nat) (h : ∀ i ∈ l, ZUCMac.isOne a i = ZUCMac.isOne b i) (s : ZUCMac.State) :
    l.foldl (ZUCMac.step a) s = l.foldl (ZUCMac.step b) s := by
  induction l generalizing s with
  | nil => rw [List.foldl_nil, List.foldl_nil]
  | cons i l ih =>
    have e : ZUCMac.step a s i = ZUCMac.step b s i := by
      unfold ZUCMac.step
      rw [h i List.mem_cons_self]
    rw [List.foldl_cons, List.foldl_cons, e]
    exact ih (fun j hj => h j (List.mem_cons_of_mem _ hj)) _

theorem zucAbsorb_eq (W : Nat) (debug : Bool) (s : ZUCMac.State) (x : Bytes) (h : s.length + 8 * x.length < 2 ^ W) :
    Model.LongHash.zucAbsorb W debug s x = .ok (ZUCMac.absorb s x) := by
  have e : x.length * 2 ^ 3 % 2 ^ W = x.length * 8 := Nat.mod_eq_of_lt (by omega)
  simp only [Model.LongHash.zucAbsorb, ZUCMac.absorb, e, fold_length]
  rw [if_neg (by omega), Nat.mod_eq_of_lt (by omega)]

theorem absorb_length (s : ZUCMac.State) (x : Bytes) : (ZUCMac.absorb s x).length = s.length + 8 * x.length := by
  simp only [ZUCMac.absorb, fold_length]; omega

theorem absorb_isCheck (s : ZUCMac.State) (x : Bytes) : (ZUCMac.absorb s x).isCheck = s.isCheck := by
  have h : ∀ (l : List Nat) (s : ZUCMac.State), (l.foldl (ZUCMac.step x) s).isCheck = s.isCheck := by
    intro l
    induction l with
    | nil => intro s; rfl
    | cons i l ih =>
      intro s
      rw [List.foldl_cons, ih]
      simp only [ZUCMac.step]
      split <;> split <;> rfl
  simp only [ZUCMac.absorb, h]

theorem zuc_writes (W : Nat) (debug : Bool) (ms : List Bytes) (s : ZUCMac.State) (hc : s.isCheck = false)
    (h : s.length + 8 * ms.flatten.length < 2 ^ W) :
    ms.foldlM (Model.LongHash.zucWrite W debug) s = ms.foldlM ZUCMac.write s := by
  induction ms generalizing s with
  | nil => rfl
  | cons x ms ih =>
    rw [List.flatten_cons, List.length_append] at h
    rw [List.foldlM_cons, List.foldlM_cons, Model.LongHash.zucWrite, ZUCMac.write, hc]
    simp only [Bool.false_eq_true, if_false]
    rw [zucAbsorb_eq W debug s x (by omega)]
    exact ih _ (by rw [absorb_isCheck, hc]) (by rw [absorb_length]; omega)

theorem zuc_fresh {count : BitVec 32} {bearer : Byte} {dir : Bool} {ck : Bytes} {s : ZUCMac.State}
    (h : ZUCMac.fromSlice count bearer dir ck = .ok s) : s.isCheck = false ∧ s.length = 0 := by
  unfold ZUCMac.fromSlice at h
  split at h
  · cases h
  · simp only [bind, Except.bind] at h
    split at h
    · cases h
    · cases h; exact ⟨rfl, rfl⟩

end LongHash

/-- The ZUC MAC: on either machine and in both kinds of build, objects behave like those of the other properties (C40) as long as the message has fewer than
`2^W` bits. -/
theorem C114_zuc_partial (W : Nat) (debug : Bool) (count : BitVec 32) (bearer : Byte) (dir : Bool) (ck : Bytes) (s : ZUCMac.State)
    (hs : ZUCMac.fromSlice count bearer dir ck = .ok s) (ms : List Bytes) (h : 8 * ms.flatten.length < 2 ^ W) :
    Model.LongHash.zucTag W debug s ms = digestOf ZUCMac.digest s ms := by
  obtain ⟨hc, hl⟩ := LongHash.zuc_fresh hs
  unfold Model.LongHash.zucTag digestOf
  rw [LongHash.zuc_writes W debug ms s hc (by omega), ← LongHash.foldlM_writeAll]
  rfl

/-- On a 32-bit machine, in both kinds of build, 512 MiB appended to a message written at once do not change its tag, whatever they are and whatever
the key is: two messages with the same tag, without knowledge of the key. -/
theorem C114_zuc_refuted (debug : Bool) (count : BitVec 32) (bearer : Byte) (dir : Bool) (ck : Bytes) (s : ZUCMac.State)
    (hs : ZUCMac.fromSlice count bearer dir ck = .ok s) (m x : Bytes) (hx : x.length = 2 ^ 29) :
    Model.LongHash.zucTag 32 debug s [m ++ x] = Model.LongHash.zucTag 32 debug s [m] ∧ m ++ x ≠ m ∧
      ∃ t, Model.LongHash.zucTag 32 debug s [m] = .ok t := by
  obtain ⟨hc, hl⟩ := LongHash.zuc_fresh hs
  have hb : (m ++ x).length * 2 ^ 3 % 2 ^ 32 = m.length * 2 ^ 3 % 2 ^ 32 := by rw [List.length_append, hx]; omega
  have hlt := Nat.mod_lt (m.length * 2 ^ 3) (show 0 < 2 ^ 32 by decide)
  have hle := Nat.mod_le (m.length * 2 ^ 3) (2 ^ 32)
  have e : Model.LongHash.zucWrite 32 debug s (m ++ x) = Model.LongHash.zucWrite 32 debug s m := by
    simp only [Model.LongHash.zucWrite, hc, Bool.false_eq_true, if_false, Model.LongHash.zucAbsorb, hb]
    rw [LongHash.fold_congr (m ++ x) m]
    intro i hi
    rw [List.mem_range] at hi
    simp only [ZUCMac.isOne]
    have : i / 8 < m.length := by omega
    rw [List.getD_eq_getElem?_getD, List.getD_eq_getElem?_getD, List.getElem?_append_left this]
  refine ⟨?_, fun he => ?_, ?_⟩
  · simp only [Model.LongHash.zucTag, List.foldlM_cons, e]
  · have := congrArg List.length he
    rw [List.length_append, hx] at this
    omega
  · simp only [Model.LongHash.zucTag, List.foldlM_cons, List.foldlM_nil, Model.LongHash.zucWrite, hc, Bool.false_eq_true, if_false,
      Model.LongHash.zucAbsorb, LongHash.fold_length, hl]
    rw [if_neg (by omega)]
    exact ⟨_, rfl⟩

/-- The hypotheses of the theorems are met: 100 bytes in two pieces on a 32-bit machine; a message of `2^29` bytes exists. -/
example : paddedLen .sha256 ([List.replicate 60 1#8, List.replicate 40 2#8] : List Bytes).flatten.length = 128 ∧
    Model.LongHash.run 32 true .sha256 [List.replicate 60 1#8, List.replicate 40 2#8] =
      .ok (SHA.sha256 (List.replicate 60 1#8 ++ List.replicate 40 2#8)) := by
  refine ⟨by decide, ?_⟩
  have := C114_width32_partial true .sha256 [List.replicate 60 1#8, List.replicate 40 2#8] (by decide) (by decide)
  simpa [standard] using this
example : ∃ m : Bytes, m.length = 2 ^ 29 := ⟨List.replicate _ 0#8, List.length_replicate⟩
example : ∃ s, ZUCMac.fromSlice 1#32 2#8 true (List.replicate 16 7#8) = .ok s := by
  have h : (ZUCMac.fromSlice 1#32 2#8 true (List.replicate 16 7#8)).isOk = true := by decide +kernel
  cases e : ZUCMac.fromSlice 1#32 2#8 true (List.replicate 16 7#8) with
  | ok s => exact ⟨s, rfl⟩
  | error x => rw [e] at h; cases h
/-- The longest message a 32-bit debug build can hash with SHA-256 has `2^32 - 64 - 9` bytes. -/
example : paddedLen .sha256 (2 ^ 32 - 64 - 9) = 2 ^ 32 - 64 ∧ paddedLen .sha256 (2 ^ 32 - 64 - 8) = 2 ^ 32 := by decide

end Verif.Props
