import Verif.Proof.HashLaw
import Verif.Proof.SHA2Const

/-! Properties C23 to C26 and C28 (each hash is the standard one for every chunking), C27 (SHA-512/t), C29 (histories) -/

namespace Verif.Model.SHA2
/-! The contracts of the SHA-2 instances. -/
theorem law256 : LawfulDigest sha256 Spec.SHA.sha256 (some 64) 32 (MD.Abs params256 init256) (MD.Chk (fun q => (out256 q).take 32) Spec.SHA.sha256) :=
  lawful256 init256 32 (by decide) Spec.SHA.sha256 (fun m => by
  rw [iv256_eq, List.take_of_length_le (Nat.le_of_eq (regBytes32_length _))]; rfl)
theorem law224 : LawfulDigest sha224 Spec.SHA.sha224 (some 64) 28 (MD.Abs params256 init224) (MD.Chk (fun q => (out256 q).take 28) Spec.SHA.sha224) :=
  lawful256 init224 28 (by decide) Spec.SHA.sha224 (fun m => by rw [iv224_eq]; rfl)
theorem law512 : LawfulDigest sha512 Spec.SHA.sha512 (some 128) 64 (MD.Abs params512 init512) (MD.Chk (fun q => (out512 q).take 64) Spec.SHA.sha512) :=
  lawful512 init512 64 (by decide) Spec.SHA.sha512 (fun m => by
  rw [iv512_eq, List.take_of_length_le (Nat.le_of_eq (regBytes64_length _))]; rfl)
theorem law384 : LawfulDigest sha384 Spec.SHA.sha384 (some 128) 48 (MD.Abs params512 init384) (MD.Chk (fun q => (out512 q).take 48) Spec.SHA.sha384) :=
  lawful512 init384 48 (by decide) Spec.SHA.sha384 (fun m => by rw [iv384_eq]; rfl)
theorem law512t256 : LawfulDigest sha512t256 (Spec.SHA.sha512t 256) (some 128) 32 (MD.Abs params512 init512t256) (MD.Chk (fun q => (out512 q).take 32) (Spec.SHA.sha512t 256)) :=
  lawful512 init512t256 32 (by decide) (Spec.SHA.sha512t 256) (fun m => by rw [iv512t_eq.1]; rfl)
theorem law512t224 : LawfulDigest sha512t224 (Spec.SHA.sha512t 224) (some 128) 28 (MD.Abs params512 init512t224) (MD.Chk (fun q => (out512 q).take 28) (Spec.SHA.sha512t 224)) :=
  lawful512 init512t224 28 (by decide) (Spec.SHA.sha512t 224) (fun m => by rw [iv512t_eq.2]; rfl)
end Verif.Model.SHA2

namespace Verif.Props
open Verif.Model

/-- The digests a history of calls returns, if nothing fails. -/
def outputs {S : Type} (r : Res (S × List Bytes)) : Option (List Bytes) :=
  match r with
  | .ok (_, xs) => some xs
  | .error _ => none

/-! ## MD5 -/

/-- C23: for every message of less than 2^64 bytes and every way to cut it into `write` calls, a new MD5 object returns the RFC 1321 digest of
the concatenation. -/
theorem C23_md5_standard (chunks : List Bytes) (h : chunks.flatten.length < 2 ^ 64) :
    ∃ s s', writeAll MD5.digest MD5.new chunks = .ok s ∧ MD5.digest.checksum s = .ok (s', Spec.MD5.hash chunks.flatten) := by
  obtain ⟨s, s', e1, e2, _⟩ := MD5.lawful.hash _ chunks (MD.abs_new MD5.params (by decide) MD5.init) h
  exact ⟨s, s', e1, e2⟩

/-- C29 for MD5: whatever calls were made before, nothing fails, `checksum` can be repeated and gives the same digest, and `reset` gives back
the new object. -/
theorem C29_md5_history (ops : List DOp) :
    ∃ s1 xs s2 x, runDigest MD5.digest MD5.new ops = .ok (s1, xs) ∧ MD5.digest.checksum s1 = .ok (s2, x) ∧ MD5.digest.checksum s2 = .ok (s2, x) ∧
      MD5.digest.reset s1 = .ok MD5.new ∧ MD5.digest.reset s2 = .ok MD5.new := by
  exact MD.history MD5.params (by decide) MD5.init MD5.finish MD5.out MD5.digest rfl (fun _ => rfl) (fun _ => rfl)
    (fun _ _ _ h => MD5.finish_ok h) (fun s h => by rw [MD5.finish, if_pos h]) ops _ ⟨MD5.init, [], MD.inv_init MD5.params (by decide) _ _ _⟩

/-- C29 for MD5: a history in which `reset` comes between a `checksum` and the next `write` returns, at every `checksum`, the digest of the data
written since the last `reset`. -/
theorem C29_md5_digests (ops : List DOp) (hd : Disciplined false ops) (h : written ops < 2 ^ 64) :
    ∃ s, runDigest MD5.digest MD5.new ops = .ok (s, idealDigests Spec.MD5.hash [] ops) :=
  MD5.lawful.run ops _ [] false (MD.abs_new MD5.params (by decide) MD5.init) hd (by simpa using h)

/-- Non-vacuity: the test vector "abc", in two chunks, twice, after a reset. -/
example : outputs (runDigest MD5.digest MD5.new [.write [0xff#8], .reset, .write [0x61#8], .write [0x62#8, 0x63#8], .checksum, .checksum]) =
    some [[0x90#8, 0x01#8, 0x50#8, 0x98#8, 0x3c#8, 0xd2#8, 0x4f#8, 0xb0#8, 0xd6#8, 0x96#8, 0x3f#8, 0x7d#8, 0x28#8, 0xe1#8, 0x7f#8, 0x72#8], [0x90#8, 0x01#8, 0x50#8, 0x98#8, 0x3c#8, 0xd2#8, 0x4f#8, 0xb0#8, 0xd6#8, 0x96#8, 0x3f#8, 0x7d#8, 0x28#8, 0xe1#8, 0x7f#8, 0x72#8]] := by decide +kernel

/-! ## SHA-1 -/

/-- C24: for every message of less than 2^64 bytes and every way to cut it into `write` calls, a new SHA-1 object returns the FIPS 180-4 digest of
the concatenation. -/
theorem C24_sha1_standard (chunks : List Bytes) (h : chunks.flatten.length < 2 ^ 64) :
    ∃ s s', writeAll SHA1.digest SHA1.new chunks = .ok s ∧ SHA1.digest.checksum s = .ok (s', Spec.SHA.sha1 chunks.flatten) := by
  obtain ⟨s, s', e1, e2, _⟩ := SHA1.lawful.hash _ chunks (MD.abs_new SHA1.params (by decide) SHA1.init) h
  exact ⟨s, s', e1, e2⟩

/-- C29 for SHA-1: whatever calls were made before, nothing fails, `checksum` can be repeated and gives the same digest, and `reset` gives back
the new object. -/
theorem C29_sha1_history (ops : List DOp) :
    ∃ s1 xs s2 x, runDigest SHA1.digest SHA1.new ops = .ok (s1, xs) ∧ SHA1.digest.checksum s1 = .ok (s2, x) ∧ SHA1.digest.checksum s2 = .ok (s2, x) ∧
      SHA1.digest.reset s1 = .ok SHA1.new ∧ SHA1.digest.reset s2 = .ok SHA1.new := by
  exact MD.history SHA1.params (by decide) SHA1.init (MD.finish SHA1.params 56 (fun len => be64 (len <<< 3)) true) SHA1.out SHA1.digest rfl (fun _ => rfl)
    (fun _ => rfl) (fun _ _ _ h => MD.finish_ok SHA1.params 56 _ true (by decide) (by decide) h)
    (fun s h => MD.finish_checked SHA1.params 56 _ true s h) ops _ ⟨SHA1.init, [], MD.inv_init SHA1.params (by decide) _ _ _⟩

/-- C29 for SHA-1: a history in which `reset` comes between a `checksum` and the next `write` returns, at every `checksum`, the digest of the data
written since the last `reset`. -/
theorem C29_sha1_digests (ops : List DOp) (hd : Disciplined false ops) (h : written ops < 2 ^ 64) :
    ∃ s, runDigest SHA1.digest SHA1.new ops = .ok (s, idealDigests Spec.SHA.sha1 [] ops) :=
  SHA1.lawful.run ops _ [] false (MD.abs_new SHA1.params (by decide) SHA1.init) hd (by simpa using h)

/-- Non-vacuity: the test vector "abc", in two chunks, twice, after a reset. -/
example : outputs (runDigest SHA1.digest SHA1.new [.write [0xff#8], .reset, .write [0x61#8], .write [0x62#8, 0x63#8], .checksum, .checksum]) =
    some [[0xa9#8, 0x99#8, 0x3e#8, 0x36#8, 0x47#8, 0x06#8, 0x81#8, 0x6a#8, 0xba#8, 0x3e#8, 0x25#8, 0x71#8, 0x78#8, 0x50#8, 0xc2#8, 0x6c#8, 0x9c#8, 0xd0#8, 0xd8#8, 0x9d#8], [0xa9#8, 0x99#8, 0x3e#8, 0x36#8, 0x47#8, 0x06#8, 0x81#8, 0x6a#8, 0xba#8, 0x3e#8, 0x25#8, 0x71#8, 0x78#8, 0x50#8, 0xc2#8, 0x6c#8, 0x9c#8, 0xd0#8, 0xd8#8, 0x9d#8]] := by decide +kernel

/-! ## SHA-256 -/

/-- C25: for every message of less than 2^64 bytes and every way to cut it into `write` calls, a new SHA-256 object returns the FIPS 180-4 digest of
the concatenation. -/
theorem C25_sha256_standard (chunks : List Bytes) (h : chunks.flatten.length < 2 ^ 64) :
    ∃ s s', writeAll SHA2.sha256 (SHA2.new256 SHA2.init256) chunks = .ok s ∧ SHA2.sha256.checksum s = .ok (s', Spec.SHA.sha256 chunks.flatten) := by
  obtain ⟨s, s', e1, e2, _⟩ := SHA2.law256.hash _ chunks (MD.abs_new SHA2.params256 (by decide) SHA2.init256) h
  exact ⟨s, s', e1, e2⟩

/-- C29 for SHA-256: whatever calls were made before, nothing fails, `checksum` can be repeated and gives the same digest, and `reset` gives back
the new object. -/
theorem C29_sha256_history (ops : List DOp) :
    ∃ s1 xs s2 x, runDigest SHA2.sha256 (SHA2.new256 SHA2.init256) ops = .ok (s1, xs) ∧ SHA2.sha256.checksum s1 = .ok (s2, x) ∧ SHA2.sha256.checksum s2 = .ok (s2, x) ∧
      SHA2.sha256.reset s1 = .ok (SHA2.new256 SHA2.init256) ∧ SHA2.sha256.reset s2 = .ok (SHA2.new256 SHA2.init256) := by
  exact SHA2.history256 SHA2.init256 32 ops

/-- C29 for SHA-256: a history in which `reset` comes between a `checksum` and the next `write` returns, at every `checksum`, the digest of the data
written since the last `reset`. -/
theorem C29_sha256_digests (ops : List DOp) (hd : Disciplined false ops) (h : written ops < 2 ^ 64) :
    ∃ s, runDigest SHA2.sha256 (SHA2.new256 SHA2.init256) ops = .ok (s, idealDigests Spec.SHA.sha256 [] ops) :=
  SHA2.law256.run ops _ [] false (MD.abs_new SHA2.params256 (by decide) SHA2.init256) hd (by simpa using h)

/-- Non-vacuity: the test vector "abc", in two chunks, twice, after a reset. -/
example : outputs (runDigest SHA2.sha256 (SHA2.new256 SHA2.init256) [.write [0xff#8], .reset, .write [0x61#8], .write [0x62#8, 0x63#8], .checksum, .checksum]) =
    some [[0xba#8, 0x78#8, 0x16#8, 0xbf#8, 0x8f#8, 0x01#8, 0xcf#8, 0xea#8, 0x41#8, 0x41#8, 0x40#8, 0xde#8, 0x5d#8, 0xae#8, 0x22#8, 0x23#8, 0xb0#8, 0x03#8, 0x61#8, 0xa3#8, 0x96#8, 0x17#8, 0x7a#8, 0x9c#8, 0xb4#8, 0x10#8, 0xff#8, 0x61#8, 0xf2#8, 0x00#8, 0x15#8, 0xad#8], [0xba#8, 0x78#8, 0x16#8, 0xbf#8, 0x8f#8, 0x01#8, 0xcf#8, 0xea#8, 0x41#8, 0x41#8, 0x40#8, 0xde#8, 0x5d#8, 0xae#8, 0x22#8, 0x23#8, 0xb0#8, 0x03#8, 0x61#8, 0xa3#8, 0x96#8, 0x17#8, 0x7a#8, 0x9c#8, 0xb4#8, 0x10#8, 0xff#8, 0x61#8, 0xf2#8, 0x00#8, 0x15#8, 0xad#8]] := by decide +kernel

/-! ## SHA-224 -/

/-- C25: for every message of less than 2^64 bytes and every way to cut it into `write` calls, a new SHA-224 object returns the FIPS 180-4 digest of
the concatenation. -/
theorem C25_sha224_standard (chunks : List Bytes) (h : chunks.flatten.length < 2 ^ 64) :
    ∃ s s', writeAll SHA2.sha224 (SHA2.new256 SHA2.init224) chunks = .ok s ∧ SHA2.sha224.checksum s = .ok (s', Spec.SHA.sha224 chunks.flatten) := by
  obtain ⟨s, s', e1, e2, _⟩ := SHA2.law224.hash _ chunks (MD.abs_new SHA2.params256 (by decide) SHA2.init224) h
  exact ⟨s, s', e1, e2⟩

/-- C29 for SHA-224: whatever calls were made before, nothing fails, `checksum` can be repeated and gives the same digest, and `reset` gives back
the new object. -/
theorem C29_sha224_history (ops : List DOp) :
    ∃ s1 xs s2 x, runDigest SHA2.sha224 (SHA2.new256 SHA2.init224) ops = .ok (s1, xs) ∧ SHA2.sha224.checksum s1 = .ok (s2, x) ∧ SHA2.sha224.checksum s2 = .ok (s2, x) ∧
      SHA2.sha224.reset s1 = .ok (SHA2.new256 SHA2.init224) ∧ SHA2.sha224.reset s2 = .ok (SHA2.new256 SHA2.init224) := by
  exact SHA2.history256 SHA2.init224 28 ops

/-- C29 for SHA-224: a history in which `reset` comes between a `checksum` and the next `write` returns, at every `checksum`, the digest of the data
written since the last `reset`. -/
theorem C29_sha224_digests (ops : List DOp) (hd : Disciplined false ops) (h : written ops < 2 ^ 64) :
    ∃ s, runDigest SHA2.sha224 (SHA2.new256 SHA2.init224) ops = .ok (s, idealDigests Spec.SHA.sha224 [] ops) :=
  SHA2.law224.run ops _ [] false (MD.abs_new SHA2.params256 (by decide) SHA2.init224) hd (by simpa using h)

/-- Non-vacuity: the test vector "abc", in two chunks, twice, after a reset. -/
example : outputs (runDigest SHA2.sha224 (SHA2.new256 SHA2.init224) [.write [0xff#8], .reset, .write [0x61#8], .write [0x62#8, 0x63#8], .checksum, .checksum]) =
    some [[0x23#8, 0x09#8, 0x7d#8, 0x22#8, 0x34#8, 0x05#8, 0xd8#8, 0x22#8, 0x86#8, 0x42#8, 0xa4#8, 0x77#8, 0xbd#8, 0xa2#8, 0x55#8, 0xb3#8, 0x2a#8, 0xad#8, 0xbc#8, 0xe4#8, 0xbd#8, 0xa0#8, 0xb3#8, 0xf7#8, 0xe3#8, 0x6c#8, 0x9d#8, 0xa7#8], [0x23#8, 0x09#8, 0x7d#8, 0x22#8, 0x34#8, 0x05#8, 0xd8#8, 0x22#8, 0x86#8, 0x42#8, 0xa4#8, 0x77#8, 0xbd#8, 0xa2#8, 0x55#8, 0xb3#8, 0x2a#8, 0xad#8, 0xbc#8, 0xe4#8, 0xbd#8, 0xa0#8, 0xb3#8, 0xf7#8, 0xe3#8, 0x6c#8, 0x9d#8, 0xa7#8]] := by decide +kernel

/-! ## SHA-512 -/

/-- C26: for every message of less than 2^64 bytes and every way to cut it into `write` calls, a new SHA-512 object returns the FIPS 180-4 digest of
the concatenation. -/
theorem C26_sha512_standard (chunks : List Bytes) (h : chunks.flatten.length < 2 ^ 64) :
    ∃ s s', writeAll SHA2.sha512 (SHA2.new512 SHA2.init512) chunks = .ok s ∧ SHA2.sha512.checksum s = .ok (s', Spec.SHA.sha512 chunks.flatten) := by
  obtain ⟨s, s', e1, e2, _⟩ := SHA2.law512.hash _ chunks (MD.abs_new SHA2.params512 (by decide) SHA2.init512) h
  exact ⟨s, s', e1, e2⟩

/-- C29 for SHA-512: whatever calls were made before, nothing fails, `checksum` can be repeated and gives the same digest, and `reset` gives back
the new object. -/
theorem C29_sha512_history (ops : List DOp) :
    ∃ s1 xs s2 x, runDigest SHA2.sha512 (SHA2.new512 SHA2.init512) ops = .ok (s1, xs) ∧ SHA2.sha512.checksum s1 = .ok (s2, x) ∧ SHA2.sha512.checksum s2 = .ok (s2, x) ∧
      SHA2.sha512.reset s1 = .ok (SHA2.new512 SHA2.init512) ∧ SHA2.sha512.reset s2 = .ok (SHA2.new512 SHA2.init512) := by
  exact SHA2.history512 SHA2.init512 64 ops

/-- C29 for SHA-512: a history in which `reset` comes between a `checksum` and the next `write` returns, at every `checksum`, the digest of the data
written since the last `reset`. -/
theorem C29_sha512_digests (ops : List DOp) (hd : Disciplined false ops) (h : written ops < 2 ^ 64) :
    ∃ s, runDigest SHA2.sha512 (SHA2.new512 SHA2.init512) ops = .ok (s, idealDigests Spec.SHA.sha512 [] ops) :=
  SHA2.law512.run ops _ [] false (MD.abs_new SHA2.params512 (by decide) SHA2.init512) hd (by simpa using h)

/-- Non-vacuity: the test vector "abc", in two chunks, twice, after a reset. -/
example : outputs (runDigest SHA2.sha512 (SHA2.new512 SHA2.init512) [.write [0xff#8], .reset, .write [0x61#8], .write [0x62#8, 0x63#8], .checksum, .checksum]) =
    some [[0xdd#8, 0xaf#8, 0x35#8, 0xa1#8, 0x93#8, 0x61#8, 0x7a#8, 0xba#8, 0xcc#8, 0x41#8, 0x73#8, 0x49#8, 0xae#8, 0x20#8, 0x41#8, 0x31#8, 0x12#8, 0xe6#8, 0xfa#8, 0x4e#8, 0x89#8, 0xa9#8, 0x7e#8, 0xa2#8, 0x0a#8, 0x9e#8, 0xee#8, 0xe6#8, 0x4b#8, 0x55#8, 0xd3#8, 0x9a#8, 0x21#8, 0x92#8, 0x99#8, 0x2a#8, 0x27#8, 0x4f#8, 0xc1#8, 0xa8#8, 0x36#8, 0xba#8, 0x3c#8, 0x23#8, 0xa3#8, 0xfe#8, 0xeb#8, 0xbd#8, 0x45#8, 0x4d#8, 0x44#8, 0x23#8, 0x64#8, 0x3c#8, 0xe8#8, 0x0e#8, 0x2a#8, 0x9a#8, 0xc9#8, 0x4f#8, 0xa5#8, 0x4c#8, 0xa4#8, 0x9f#8], [0xdd#8, 0xaf#8, 0x35#8, 0xa1#8, 0x93#8, 0x61#8, 0x7a#8, 0xba#8, 0xcc#8, 0x41#8, 0x73#8, 0x49#8, 0xae#8, 0x20#8, 0x41#8, 0x31#8, 0x12#8, 0xe6#8, 0xfa#8, 0x4e#8, 0x89#8, 0xa9#8, 0x7e#8, 0xa2#8, 0x0a#8, 0x9e#8, 0xee#8, 0xe6#8, 0x4b#8, 0x55#8, 0xd3#8, 0x9a#8, 0x21#8, 0x92#8, 0x99#8, 0x2a#8, 0x27#8, 0x4f#8, 0xc1#8, 0xa8#8, 0x36#8, 0xba#8, 0x3c#8, 0x23#8, 0xa3#8, 0xfe#8, 0xeb#8, 0xbd#8, 0x45#8, 0x4d#8, 0x44#8, 0x23#8, 0x64#8, 0x3c#8, 0xe8#8, 0x0e#8, 0x2a#8, 0x9a#8, 0xc9#8, 0x4f#8, 0xa5#8, 0x4c#8, 0xa4#8, 0x9f#8]] := by decide +kernel

/-! ## SHA-384 -/

/-- C26: for every message of less than 2^64 bytes and every way to cut it into `write` calls, a new SHA-384 object returns the FIPS 180-4 digest of
the concatenation. -/
theorem C26_sha384_standard (chunks : List Bytes) (h : chunks.flatten.length < 2 ^ 64) :
    ∃ s s', writeAll SHA2.sha384 (SHA2.new512 SHA2.init384) chunks = .ok s ∧ SHA2.sha384.checksum s = .ok (s', Spec.SHA.sha384 chunks.flatten) := by
  obtain ⟨s, s', e1, e2, _⟩ := SHA2.law384.hash _ chunks (MD.abs_new SHA2.params512 (by decide) SHA2.init384) h
  exact ⟨s, s', e1, e2⟩

/-- C29 for SHA-384: whatever calls were made before, nothing fails, `checksum` can be repeated and gives the same digest, and `reset` gives back
the new object. -/
theorem C29_sha384_history (ops : List DOp) :
    ∃ s1 xs s2 x, runDigest SHA2.sha384 (SHA2.new512 SHA2.init384) ops = .ok (s1, xs) ∧ SHA2.sha384.checksum s1 = .ok (s2, x) ∧ SHA2.sha384.checksum s2 = .ok (s2, x) ∧
      SHA2.sha384.reset s1 = .ok (SHA2.new512 SHA2.init384) ∧ SHA2.sha384.reset s2 = .ok (SHA2.new512 SHA2.init384) := by
  exact SHA2.history512 SHA2.init384 48 ops

/-- C29 for SHA-384: a history in which `reset` comes between a `checksum` and the next `write` returns, at every `checksum`, the digest of the data
written since the last `reset`. -/
theorem C29_sha384_digests (ops : List DOp) (hd : Disciplined false ops) (h : written ops < 2 ^ 64) :
    ∃ s, runDigest SHA2.sha384 (SHA2.new512 SHA2.init384) ops = .ok (s, idealDigests Spec.SHA.sha384 [] ops) :=
  SHA2.law384.run ops _ [] false (MD.abs_new SHA2.params512 (by decide) SHA2.init384) hd (by simpa using h)

/-- Non-vacuity: the test vector "abc", in two chunks, twice, after a reset. -/
example : outputs (runDigest SHA2.sha384 (SHA2.new512 SHA2.init384) [.write [0xff#8], .reset, .write [0x61#8], .write [0x62#8, 0x63#8], .checksum, .checksum]) =
    some [[0xcb#8, 0x00#8, 0x75#8, 0x3f#8, 0x45#8, 0xa3#8, 0x5e#8, 0x8b#8, 0xb5#8, 0xa0#8, 0x3d#8, 0x69#8, 0x9a#8, 0xc6#8, 0x50#8, 0x07#8, 0x27#8, 0x2c#8, 0x32#8, 0xab#8, 0x0e#8, 0xde#8, 0xd1#8, 0x63#8, 0x1a#8, 0x8b#8, 0x60#8, 0x5a#8, 0x43#8, 0xff#8, 0x5b#8, 0xed#8, 0x80#8, 0x86#8, 0x07#8, 0x2b#8, 0xa1#8, 0xe7#8, 0xcc#8, 0x23#8, 0x58#8, 0xba#8, 0xec#8, 0xa1#8, 0x34#8, 0xc8#8, 0x25#8, 0xa7#8], [0xcb#8, 0x00#8, 0x75#8, 0x3f#8, 0x45#8, 0xa3#8, 0x5e#8, 0x8b#8, 0xb5#8, 0xa0#8, 0x3d#8, 0x69#8, 0x9a#8, 0xc6#8, 0x50#8, 0x07#8, 0x27#8, 0x2c#8, 0x32#8, 0xab#8, 0x0e#8, 0xde#8, 0xd1#8, 0x63#8, 0x1a#8, 0x8b#8, 0x60#8, 0x5a#8, 0x43#8, 0xff#8, 0x5b#8, 0xed#8, 0x80#8, 0x86#8, 0x07#8, 0x2b#8, 0xa1#8, 0xe7#8, 0xcc#8, 0x23#8, 0x58#8, 0xba#8, 0xec#8, 0xa1#8, 0x34#8, 0xc8#8, 0x25#8, 0xa7#8]] := by decide +kernel

/-! ## SHA-512/256 -/

/-- C26: for every message of less than 2^64 bytes and every way to cut it into `write` calls, a new SHA-512/256 object returns the FIPS 180-4 digest of
the concatenation. -/
theorem C26_sha512t256_standard (chunks : List Bytes) (h : chunks.flatten.length < 2 ^ 64) :
    ∃ s s', writeAll SHA2.sha512t256 (SHA2.new512 SHA2.init512t256) chunks = .ok s ∧ SHA2.sha512t256.checksum s = .ok (s', (Spec.SHA.sha512t 256) chunks.flatten) := by
  obtain ⟨s, s', e1, e2, _⟩ := SHA2.law512t256.hash _ chunks (MD.abs_new SHA2.params512 (by decide) SHA2.init512t256) h
  exact ⟨s, s', e1, e2⟩

/-- C29 for SHA-512/256: whatever calls were made before, nothing fails, `checksum` can be repeated and gives the same digest, and `reset` gives back
the new object. -/
theorem C29_sha512t256_history (ops : List DOp) :
    ∃ s1 xs s2 x, runDigest SHA2.sha512t256 (SHA2.new512 SHA2.init512t256) ops = .ok (s1, xs) ∧ SHA2.sha512t256.checksum s1 = .ok (s2, x) ∧ SHA2.sha512t256.checksum s2 = .ok (s2, x) ∧
      SHA2.sha512t256.reset s1 = .ok (SHA2.new512 SHA2.init512t256) ∧ SHA2.sha512t256.reset s2 = .ok (SHA2.new512 SHA2.init512t256) := by
  exact SHA2.history512 SHA2.init512t256 32 ops

/-- C29 for SHA-512/256: a history in which `reset` comes between a `checksum` and the next `write` returns, at every `checksum`, the digest of the data
written since the last `reset`. -/
theorem C29_sha512t256_digests (ops : List DOp) (hd : Disciplined false ops) (h : written ops < 2 ^ 64) :
    ∃ s, runDigest SHA2.sha512t256 (SHA2.new512 SHA2.init512t256) ops = .ok (s, idealDigests (Spec.SHA.sha512t 256) [] ops) :=
  SHA2.law512t256.run ops _ [] false (MD.abs_new SHA2.params512 (by decide) SHA2.init512t256) hd (by simpa using h)

/-- Non-vacuity: the test vector "abc", in two chunks, twice, after a reset. -/
example : outputs (runDigest SHA2.sha512t256 (SHA2.new512 SHA2.init512t256) [.write [0xff#8], .reset, .write [0x61#8], .write [0x62#8, 0x63#8], .checksum, .checksum]) =
    some [[0x53#8, 0x04#8, 0x8e#8, 0x26#8, 0x81#8, 0x94#8, 0x1e#8, 0xf9#8, 0x9b#8, 0x2e#8, 0x29#8, 0xb7#8, 0x6b#8, 0x4c#8, 0x7d#8, 0xab#8, 0xe4#8, 0xc2#8, 0xd0#8, 0xc6#8, 0x34#8, 0xfc#8, 0x6d#8, 0x46#8, 0xe0#8, 0xe2#8, 0xf1#8, 0x31#8, 0x07#8, 0xe7#8, 0xaf#8, 0x23#8], [0x53#8, 0x04#8, 0x8e#8, 0x26#8, 0x81#8, 0x94#8, 0x1e#8, 0xf9#8, 0x9b#8, 0x2e#8, 0x29#8, 0xb7#8, 0x6b#8, 0x4c#8, 0x7d#8, 0xab#8, 0xe4#8, 0xc2#8, 0xd0#8, 0xc6#8, 0x34#8, 0xfc#8, 0x6d#8, 0x46#8, 0xe0#8, 0xe2#8, 0xf1#8, 0x31#8, 0x07#8, 0xe7#8, 0xaf#8, 0x23#8]] := by decide +kernel

/-! ## SHA-512/224 -/

/-- C26: for every message of less than 2^64 bytes and every way to cut it into `write` calls, a new SHA-512/224 object returns the FIPS 180-4 digest of
the concatenation. -/
theorem C26_sha512t224_standard (chunks : List Bytes) (h : chunks.flatten.length < 2 ^ 64) :
    ∃ s s', writeAll SHA2.sha512t224 (SHA2.new512 SHA2.init512t224) chunks = .ok s ∧ SHA2.sha512t224.checksum s = .ok (s', (Spec.SHA.sha512t 224) chunks.flatten) := by
  obtain ⟨s, s', e1, e2, _⟩ := SHA2.law512t224.hash _ chunks (MD.abs_new SHA2.params512 (by decide) SHA2.init512t224) h
  exact ⟨s, s', e1, e2⟩

/-- C29 for SHA-512/224: whatever calls were made before, nothing fails, `checksum` can be repeated and gives the same digest, and `reset` gives back
the new object. -/
theorem C29_sha512t224_history (ops : List DOp) :
    ∃ s1 xs s2 x, runDigest SHA2.sha512t224 (SHA2.new512 SHA2.init512t224) ops = .ok (s1, xs) ∧ SHA2.sha512t224.checksum s1 = .ok (s2, x) ∧ SHA2.sha512t224.checksum s2 = .ok (s2, x) ∧
      SHA2.sha512t224.reset s1 = .ok (SHA2.new512 SHA2.init512t224) ∧ SHA2.sha512t224.reset s2 = .ok (SHA2.new512 SHA2.init512t224) := by
  exact SHA2.history512 SHA2.init512t224 28 ops

/-- C29 for SHA-512/224: a history in which `reset` comes between a `checksum` and the next `write` returns, at every `checksum`, the digest of the data
written since the last `reset`. -/
theorem C29_sha512t224_digests (ops : List DOp) (hd : Disciplined false ops) (h : written ops < 2 ^ 64) :
    ∃ s, runDigest SHA2.sha512t224 (SHA2.new512 SHA2.init512t224) ops = .ok (s, idealDigests (Spec.SHA.sha512t 224) [] ops) :=
  SHA2.law512t224.run ops _ [] false (MD.abs_new SHA2.params512 (by decide) SHA2.init512t224) hd (by simpa using h)

/-- Non-vacuity: the test vector "abc", in two chunks, twice, after a reset. -/
example : outputs (runDigest SHA2.sha512t224 (SHA2.new512 SHA2.init512t224) [.write [0xff#8], .reset, .write [0x61#8], .write [0x62#8, 0x63#8], .checksum, .checksum]) =
    some [[0x46#8, 0x34#8, 0x27#8, 0x0f#8, 0x70#8, 0x7b#8, 0x6a#8, 0x54#8, 0xda#8, 0xae#8, 0x75#8, 0x30#8, 0x46#8, 0x08#8, 0x42#8, 0xe2#8, 0x0e#8, 0x37#8, 0xed#8, 0x26#8, 0x5c#8, 0xee#8, 0xe9#8, 0xa4#8, 0x3e#8, 0x89#8, 0x24#8, 0xaa#8], [0x46#8, 0x34#8, 0x27#8, 0x0f#8, 0x70#8, 0x7b#8, 0x6a#8, 0x54#8, 0xda#8, 0xae#8, 0x75#8, 0x30#8, 0x46#8, 0x08#8, 0x42#8, 0xe2#8, 0x0e#8, 0x37#8, 0xed#8, 0x26#8, 0x5c#8, 0xee#8, 0xe9#8, 0xa4#8, 0x3e#8, 0x89#8, 0x24#8, 0xaa#8]] := by decide +kernel

/-! ## SM3 -/

/-- C28: for every message of less than 2^64 bytes and every way to cut it into `write` calls, a new SM3 object returns the GB/T 32905 digest of
the concatenation. -/
theorem C28_sm3_standard (chunks : List Bytes) (h : chunks.flatten.length < 2 ^ 64) :
    ∃ s s', writeAll SM3.digest SM3.new chunks = .ok s ∧ SM3.digest.checksum s = .ok (s', Spec.SM3.hash chunks.flatten) := by
  obtain ⟨s, s', e1, e2, _⟩ := SM3.lawful.hash _ chunks (MD.abs_new SM3.params (by decide) SM3.init) h
  exact ⟨s, s', e1, e2⟩

/-- C29 for SM3: whatever calls were made before, nothing fails, `checksum` can be repeated and gives the same digest, and `reset` gives back
the new object. -/
theorem C29_sm3_history (ops : List DOp) :
    ∃ s1 xs s2 x, runDigest SM3.digest SM3.new ops = .ok (s1, xs) ∧ SM3.digest.checksum s1 = .ok (s2, x) ∧ SM3.digest.checksum s2 = .ok (s2, x) ∧
      SM3.digest.reset s1 = .ok SM3.new ∧ SM3.digest.reset s2 = .ok SM3.new := by
  exact MD.history SM3.params (by decide) SM3.init (MD.finish SM3.params 56 (fun len => be64 (len <<< 3)) true) SHA2.out256 SM3.digest rfl (fun _ => rfl)
    (fun _ => rfl) (fun _ _ _ h => MD.finish_ok SM3.params 56 _ true (by decide) (by decide) h)
    (fun s h => MD.finish_checked SM3.params 56 _ true s h) ops _ ⟨SM3.init, [], MD.inv_init SM3.params (by decide) _ _ _⟩

/-- C29 for SM3: a history in which `reset` comes between a `checksum` and the next `write` returns, at every `checksum`, the digest of the data
written since the last `reset`. -/
theorem C29_sm3_digests (ops : List DOp) (hd : Disciplined false ops) (h : written ops < 2 ^ 64) :
    ∃ s, runDigest SM3.digest SM3.new ops = .ok (s, idealDigests Spec.SM3.hash [] ops) :=
  SM3.lawful.run ops _ [] false (MD.abs_new SM3.params (by decide) SM3.init) hd (by simpa using h)

/-- Non-vacuity: the test vector "abc", in two chunks, twice, after a reset. -/
example : outputs (runDigest SM3.digest SM3.new [.write [0xff#8], .reset, .write [0x61#8], .write [0x62#8, 0x63#8], .checksum, .checksum]) =
    some [[0x66#8, 0xc7#8, 0xf0#8, 0xf4#8, 0x62#8, 0xee#8, 0xed#8, 0xd9#8, 0xd1#8, 0xf2#8, 0xd4#8, 0x6b#8, 0xdc#8, 0x10#8, 0xe4#8, 0xe2#8, 0x41#8, 0x67#8, 0xc4#8, 0x87#8, 0x5c#8, 0xf2#8, 0xf7#8, 0xa2#8, 0x29#8, 0x7d#8, 0xa0#8, 0x2b#8, 0x8f#8, 0x4b#8, 0xa8#8, 0xe0#8], [0x66#8, 0xc7#8, 0xf0#8, 0xf4#8, 0x62#8, 0xee#8, 0xed#8, 0xd9#8, 0xd1#8, 0xf2#8, 0xd4#8, 0x6b#8, 0xdc#8, 0x10#8, 0xe4#8, 0xe2#8, 0x41#8, 0x67#8, 0xc4#8, 0x87#8, 0x5c#8, 0xf2#8, 0xf7#8, 0xa2#8, 0x29#8, 0x7d#8, 0xa0#8, 0x2b#8, 0x8f#8, 0x4b#8, 0xa8#8, 0xe0#8]] := by decide +kernel

/-- The history of the examples satisfies the hypotheses of the `C29_*_digests` theorems. -/
example : Disciplined false [.write [0xff#8], .reset, .write [0x61#8], .write [0x62#8, 0x63#8], .checksum, .checksum] ∧
    written [.write [0xff#8], .reset, .write [0x61#8], .write [0x62#8, 0x63#8], .checksum, .checksum] < 2 ^ 64 := by
  simp [Disciplined, written]

/-! ## SHA-512/t -/

/-- C27: `SHA512T::new(t)` returns `None` exactly for `t > 512`. -/
theorem C27_sha512t_new (t : Nat) : (t ≤ 512 → ∃ n, SHA2.newT t = .ok (some n)) ∧ (512 < t → SHA2.newT t = .ok none) := by
  constructor
  · intro h
    obtain ⟨s, e, _⟩ := SHA2.newT_eq t h
    exact ⟨_, e⟩
  · intro h
    rw [SHA2.newT, if_neg (by omega)]

/-- C27: `SHA512T::new(256)` does not compute SHA-512/256: there is a message for which it differs from the standard (and from
`SHA512T256`). Here the empty message. -/
theorem C27_sha512t_refuted : ¬ ∀ m : Bytes, ∀ n, SHA2.newT 256 = .ok (some n) →
    outputs (runDigest SHA2.digestT n [.write m, .checksum]) = some [Spec.SHA.sha512t 256 m] := by
  intro h
  obtain ⟨n, hn⟩ := (C27_sha512t_new 256).1 (by decide)
  have h1 := h [] n hn
  obtain ⟨s, s', e1, e2⟩ := C26_sha512t256_standard [[]] (by decide)
  have h2 : outputs (runDigest SHA2.sha512t256 (SHA2.new512 SHA2.init512t256) [.write [], .checksum]) = some [Spec.SHA.sha512t 256 []] := by
    simp only [writeAll, bind, Except.bind] at e1
    revert e1
    cases h3 : SHA2.sha512t256.write (SHA2.new512 SHA2.init512t256) []
    · intro e1; cases e1
    · intro e1
      simp only [Except.ok.injEq] at e1
      simp only [runDigest, bind, Except.bind, h3, e1, e2, outputs]
      rfl
  rw [← h2] at h1
  have h3 : (match SHA2.newT 256 with
    | .ok (some n) => decide (outputs (runDigest SHA2.digestT n [.write [], .checksum]) =
        outputs (runDigest SHA2.sha512t256 (SHA2.new512 SHA2.init512t256) [.write [], .checksum]))
    | _ => false) = false := by decide +kernel
  rw [hn] at h3
  simp only [decide_eq_false_iff_not] at h3
  exact h3 h1

/-- C27: when `t` is no multiple of 8, the last byte does not hold the leftmost `t mod 8` bits in its leftmost positions: a low bit which must be
zero can be set. Here `t = 9` and a message of one byte. -/
theorem C27_last_byte_refuted : ¬ ∀ (t : Nat) (m : Bytes) (n : SHA2.T) (x : Bytes), t ≤ 512 → t % 8 ≠ 0 → SHA2.newT t = .ok (some n) →
    outputs (runDigest SHA2.digestT n [.write m, .checksum]) = some [x] → x.getLastD 0#8 &&& (0xff#8 >>> (t % 8)) = 0#8 := by
  intro h
  obtain ⟨n, hn⟩ := (C27_sha512t_new 9).1 (by decide)
  have h3 : (match SHA2.newT 9 with
    | .ok (some n) => (match outputs (runDigest SHA2.digestT n [.write [0x01#8], .checksum]) with
      | some [x] => decide (x.getLastD 0#8 &&& (0xff#8 >>> (9 % 8)) ≠ 0#8)
      | _ => false)
    | _ => false) = true := by decide +kernel
  rw [hn] at h3
  simp only at h3
  split at h3
  · rename_i x hx
    simp only [decide_eq_true_eq] at h3
    exact h3 (h 9 [0x01#8] n x (by decide) (by decide) hn hx)
  · cases h3

/-- C27, what does hold (full statement: the digest is that of FIPS 180-4, SHA-512/t, for every `t`): the initial value is the one of 5.3.6, and the
digest consists of the first `⌈t/8⌉` bytes of a SHA-512 computation from it in which the length field is too large by 1024 bits, with the
last byte `x` replaced by `(x >> (8 - t % 8)) << (t % 8)` if `t` is no multiple of 8. Missing: the right length field and last byte. -/
theorem C27_sha512t_partial (t : Nat) (ht : t ≤ 512) (chunks : List Bytes) (h : 128 + chunks.flatten.length < 2 ^ 64) :
    ∃ n s s' x, SHA2.newT t = .ok (some n) ∧ writeAll SHA2.digestT n chunks = .ok s ∧ SHA2.digestT.checksum s = .ok (s', x) ∧
      x.length = (t + 7) / 8 ∧ ∃ full, full = Spec.SHA.regBytes (Spec.MD.iterate (Spec.SHA.compress2 Spec.SHA.alg512) 128 (Spec.SHA.ivT t)
        (Spec.MD.pad 128 (fun n => Spec.MD.be 16 (1024 + n)) chunks.flatten)) ∧ x.take (t / 8) = full.take (t / 8) ∧
        (t % 8 ≠ 0 → x.getD (t / 8) 0#8 = (full.getD (t / 8) 0#8 >>> (8 - t % 8)) <<< (t % 8)) := by
  obtain ⟨n, s, s', q, e1, e2, e3, hq⟩ := SHA2.hashT t ht chunks h
  have hl : (SHA2.out512 q).length = 64 := by rw [SHA2.out512_eq, regBytes64_length]
  refine ⟨n, s, s', _, e1, e2, e3, SHA2.truncT_length t ht _ hl, SHA2.out512 q, by rw [SHA2.out512_eq, hq], ?_, ?_⟩
  · exact SHA2.truncT_take t ht _ hl
  · exact SHA2.truncT_last t ht _ hl

/-- C29 for SHA-512/t. -/
theorem C29_sha512t_history (t : Nat) (n : SHA2.T) (hn : SHA2.newT t = .ok (some n)) (ops : List DOp) :
    ∃ s1 xs s2 x, runDigest SHA2.digestT n ops = .ok (s1, xs) ∧ SHA2.digestT.checksum s1 = .ok (s2, x) ∧ SHA2.digestT.checksum s2 = .ok (s2, x) ∧
      SHA2.digestT.reset s1 = .ok n ∧ SHA2.digestT.reset s2 = .ok n := by
  have ht : t ≤ 512 := by
    by_cases h : t ≤ 512
    · exact h
    · rw [(C27_sha512t_new t).2 (by omega)] at hn; cases hn
  obtain ⟨s, e, i, _⟩ := SHA2.newT_eq t ht
  rw [e] at hn
  simp only [Except.ok.injEq, Option.some.injEq] at hn
  subst hn
  exact SHA2.historyT t ops _ ⟨⟨_, _, i⟩, rfl⟩ _ e ⟨_, _, i⟩ rfl

/-- The constants of SHA-2 in the specification are what FIPS 180-4 says: `frac w k n` is `⌊2^w · n^(1/k)⌋ mod 2^w`. -/
theorem C25_spec_frac (w k n : Nat) (hk : 0 < k) (hn : n < 2 ^ 16) :
    ∃ r, r ^ k ≤ n * 2 ^ (k * w) ∧ n * 2 ^ (k * w) < (r + 1) ^ k ∧ Spec.SHA.frac w k n = BitVec.ofNat w r := by
  have h : n * 2 ^ (k * w) < 2 ^ ((w + 16) * k) := by
    rw [Nat.add_mul, Nat.pow_add, Nat.mul_comm, Nat.mul_comm w k]
    refine Nat.mul_lt_mul_of_pos_left (Nat.lt_of_lt_of_le hn (Nat.pow_le_pow_right (by decide) ?_)) (Nat.two_pow_pos _)
    exact Nat.le_mul_of_pos_right _ hk
  obtain ⟨h1, h2⟩ := Spec.SHA.root_spec k (n * 2 ^ (k * w)) (w + 16) hk h
  exact ⟨_, h1, h2, rfl⟩

end Verif.Props
