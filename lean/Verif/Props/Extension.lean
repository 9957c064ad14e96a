import Verif.Proof.Extension
import Verif.Props.Collision

/-!
# C88: length extension

From the digest of a message and its length, without the message, the digest of every message that starts with the padded message can be computed. (The
digest `out r` spells the registers `r`, and only these.) So `hash(key ‖ message)` is no message authentication code with these hash functions.
-/

namespace Verif.Props
open Verif.Model Verif.Spec

/-- C88 (MD5). -/
theorem C88_md5 (x y : List Bytes) (z : Bytes) (hy : y.flatten = x.flatten ++ MD.tail 64 (MD.le 8) x.flatten.length ++ z) (hl : y.flatten.length < 2 ^ 64)
    (r : Spec.MD5.Regs) (h : digestOf MD5.digest MD5.new x = .ok (Spec.MD5.out r)) :
    digestOf MD5.digest MD5.new y = .ok (Spec.MD5.out (MD.extended Spec.MD5.compress 64 (MD.le 8) r x.flatten.length z)) := by
  have hx : x.flatten.length < 2 ^ 64 := by rw [hy] at hl; simp only [List.length_append] at hl; omega
  rw [digestOf_eq (C23_md5_standard x hx)] at h
  rw [digestOf_eq (C23_md5_standard y hl), hy]
  have hr := md5_out_inj (Except.ok.inj h)
  subst hr
  exact congrArg (fun q => Except.ok (Spec.MD5.out q)) (MD.extension (by decide) _ _ _)

/-- C88 (SHA-1). -/
theorem C88_sha1 (x y : List Bytes) (z : Bytes) (hy : y.flatten = x.flatten ++ MD.tail 64 (MD.be 8) x.flatten.length ++ z) (hl : y.flatten.length < 2 ^ 64)
    (r : SHA.Regs5)
    (h : digestOf SHA1.digest SHA1.new x = .ok (SHA.bytes r.a ++ SHA.bytes r.b ++ SHA.bytes r.c ++ SHA.bytes r.d ++ SHA.bytes r.e)) :
    let q := MD.extended SHA.compress1 64 (MD.be 8) r x.flatten.length z
    digestOf SHA1.digest SHA1.new y = .ok (SHA.bytes q.a ++ SHA.bytes q.b ++ SHA.bytes q.c ++ SHA.bytes q.d ++ SHA.bytes q.e) := by
  have hx : x.flatten.length < 2 ^ 64 := by rw [hy] at hl; simp only [List.length_append] at hl; omega
  rw [digestOf_eq (C24_sha1_standard x hx)] at h
  rw [digestOf_eq (C24_sha1_standard y hl), hy]
  have hr := sha1_out_inj (Except.ok.inj h)
  subst hr
  exact congrArg (fun q : SHA.Regs5 => Except.ok (SHA.bytes q.a ++ SHA.bytes q.b ++ SHA.bytes q.c ++ SHA.bytes q.d ++ SHA.bytes q.e))
    (MD.extension (by decide) _ _ _)

/-- C88 (SHA-256). -/
theorem C88_sha256 (x y : List Bytes) (z : Bytes) (hy : y.flatten = x.flatten ++ MD.tail 64 (MD.be 8) x.flatten.length ++ z) (hl : y.flatten.length < 2 ^ 64)
    (r : SHA.Regs 32) (h : digestOf SHA2.sha256 (SHA2.new256 SHA2.init256) x = .ok (SHA.regBytes r)) :
    digestOf SHA2.sha256 (SHA2.new256 SHA2.init256) y =
      .ok (SHA.regBytes (MD.extended (SHA.compress2 SHA.alg256) 64 (MD.be 8) r x.flatten.length z)) := by
  have hx : x.flatten.length < 2 ^ 64 := by rw [hy] at hl; simp only [List.length_append] at hl; omega
  rw [digestOf_eq (C25_sha256_standard x hx)] at h
  rw [digestOf_eq (C25_sha256_standard y hl), hy]
  have hr := regBytes_inj (fun _ _ => bytes32_inj) (Except.ok.inj h)
  subst hr
  exact congrArg (fun q => Except.ok (SHA.regBytes q)) (MD.extension (by decide) _ _ _)

/-- C88 (SHA-512). -/
theorem C88_sha512 (x y : List Bytes) (z : Bytes) (hy : y.flatten = x.flatten ++ MD.tail 128 (MD.be 16) x.flatten.length ++ z)
    (hl : y.flatten.length < 2 ^ 64) (r : SHA.Regs 64) (h : digestOf SHA2.sha512 (SHA2.new512 SHA2.init512) x = .ok (SHA.regBytes r)) :
    digestOf SHA2.sha512 (SHA2.new512 SHA2.init512) y =
      .ok (SHA.regBytes (MD.extended (SHA.compress2 SHA.alg512) 128 (MD.be 16) r x.flatten.length z)) := by
  have hx : x.flatten.length < 2 ^ 64 := by rw [hy] at hl; simp only [List.length_append] at hl; omega
  rw [digestOf_eq (C26_sha512_standard x hx)] at h
  rw [digestOf_eq (C26_sha512_standard y hl), hy]
  have hr := regBytes_inj (fun _ _ => bytes64_inj) (Except.ok.inj h)
  subst hr
  exact congrArg (fun q => Except.ok (SHA.regBytes q)) (MD.extension (by decide) _ _ _)

/-- C88 (SM3). -/
theorem C88_sm3 (x y : List Bytes) (z : Bytes) (hy : y.flatten = x.flatten ++ MD.tail 64 (MD.be 8) x.flatten.length ++ z) (hl : y.flatten.length < 2 ^ 64)
    (r : SHA.Regs 32) (h : digestOf SM3.digest SM3.new x = .ok (SHA.regBytes r)) :
    digestOf SM3.digest SM3.new y = .ok (SHA.regBytes (MD.extended Spec.SM3.compress 64 (MD.be 8) r x.flatten.length z)) := by
  have hx : x.flatten.length < 2 ^ 64 := by rw [hy] at hl; simp only [List.length_append] at hl; omega
  rw [digestOf_eq (C28_sm3_standard x hx)] at h
  rw [digestOf_eq (C28_sm3_standard y hl), hy]
  have hr := regBytes_inj (fun _ _ => bytes32_inj) (Except.ok.inj h)
  subst hr
  exact congrArg (fun q => Except.ok (SHA.regBytes q)) (MD.extension (by decide) _ _ _)

/-- The digest of "key" ‖ "msg" and what can be made of it, without the key: the digest of the message "msg" ‖ padding ‖ "!" under the same key. -/
example : (digestOf MD5.digest MD5.new [[0x6b, 0x65, 0x79], [0x6d, 0x73, 0x67]]).toOption =
      some (Spec.MD5.out ⟨0xc74c0d5e#32, 0xc27fde9e#32, 0xb97939cb#32, 0x02d1cc41#32⟩) ∧
    Spec.MD5.out (MD.extended Spec.MD5.compress 64 (MD.le 8) ⟨0xc74c0d5e#32, 0xc27fde9e#32, 0xb97939cb#32, 0x02d1cc41#32⟩ 6 [0x21]) =
      [0x74, 0xaa, 0x3f, 0x23, 0xf5, 0x00, 0xa6, 0x0f, 0x96, 0x45, 0xbd, 0xc8, 0x0f, 0x85, 0xbd, 0x6d] ∧
    (digestOf MD5.digest MD5.new [[0x6b, 0x65, 0x79], [0x6d, 0x73, 0x67] ++ MD.tail 64 (MD.le 8) 6 ++ [0x21]]).toOption =
      some [0x74, 0xaa, 0x3f, 0x23, 0xf5, 0x00, 0xa6, 0x0f, 0x96, 0x45, 0xbd, 0xc8, 0x0f, 0x85, 0xbd, 0x6d] := by
  decide +kernel

/-- Every digest spells registers, so the statements apply to every message. -/
example (x : List Bytes) (hx : x.flatten.length < 2 ^ 64) :
    (∃ r : SHA.Regs 32, digestOf SHA2.sha256 (SHA2.new256 SHA2.init256) x = .ok (SHA.regBytes r)) ∧ (∃ r : SHA.Regs 32, digestOf SM3.digest SM3.new x = .ok (SHA.regBytes r)) ∧
    (∃ r : SHA.Regs 64, digestOf SHA2.sha512 (SHA2.new512 SHA2.init512) x = .ok (SHA.regBytes r)) :=
  ⟨⟨_, digestOf_eq (C25_sha256_standard x hx)⟩, ⟨_, digestOf_eq (C28_sm3_standard x hx)⟩, ⟨_, digestOf_eq (C26_sha512_standard x hx)⟩⟩

end Verif.Props
