import Verif.Proof.Multicollision
import Verif.Proof.SameDigest
import Verif.Props.Collision
import Verif.Props.PKCS1
import Verif.Props.PSS
import Verif.Props.DSA
import Verif.Props.ECDSA

/-!
# C104: what two messages with one digest are good for

A caller relies on a digest, and on a signature of it, standing for one message. With MD5 and SHA-1 it does not: two published pairs of messages have one
digest each, also when the same bytes are appended to both, and every signature of the one is a signature of the other under every key. And with every one of
the unkeyed iterated hash functions, `t` collisions are enough for `2^t` messages with one digest, so that joining a second hash function adds little.
-/

namespace Verif.Props
open Verif.Model Verif.Spec

/-- The first blocks of the two files of "The first collision for full SHA-1" (Stevens, Bursztein, Karpman, Albertini, Markov 2017). -/
def shattered₀ : Bytes := [
    0x25, 0x50, 0x44, 0x46, 0x2d, 0x31, 0x2e, 0x33, 0x0a, 0x25, 0xe2, 0xe3, 0xcf, 0xd3, 0x0a, 0x0a, 0x0a, 0x31, 0x20, 0x30, 0x20, 0x6f,
    0x62, 0x6a, 0x0a, 0x3c, 0x3c, 0x2f, 0x57, 0x69, 0x64, 0x74, 0x68, 0x20, 0x32, 0x20, 0x30, 0x20, 0x52, 0x2f, 0x48, 0x65, 0x69, 0x67,
    0x68, 0x74, 0x20, 0x33, 0x20, 0x30, 0x20, 0x52, 0x2f, 0x54, 0x79, 0x70, 0x65, 0x20, 0x34, 0x20, 0x30, 0x20, 0x52, 0x2f, 0x53, 0x75,
    0x62, 0x74, 0x79, 0x70, 0x65, 0x20, 0x35, 0x20, 0x30, 0x20, 0x52, 0x2f, 0x46, 0x69, 0x6c, 0x74, 0x65, 0x72, 0x20, 0x36, 0x20, 0x30,
    0x20, 0x52, 0x2f, 0x43, 0x6f, 0x6c, 0x6f, 0x72, 0x53, 0x70, 0x61, 0x63, 0x65, 0x20, 0x37, 0x20, 0x30, 0x20, 0x52, 0x2f, 0x4c, 0x65,
    0x6e, 0x67, 0x74, 0x68, 0x20, 0x38, 0x20, 0x30, 0x20, 0x52, 0x2f, 0x42, 0x69, 0x74, 0x73, 0x50, 0x65, 0x72, 0x43, 0x6f, 0x6d, 0x70,
    0x6f, 0x6e, 0x65, 0x6e, 0x74, 0x20, 0x38, 0x3e, 0x3e, 0x0a, 0x73, 0x74, 0x72, 0x65, 0x61, 0x6d, 0x0a, 0xff, 0xd8, 0xff, 0xfe, 0x00,
    0x24, 0x53, 0x48, 0x41, 0x2d, 0x31, 0x20, 0x69, 0x73, 0x20, 0x64, 0x65, 0x61, 0x64, 0x21, 0x21, 0x21, 0x21, 0x21, 0x85, 0x2f, 0xec,
    0x09, 0x23, 0x39, 0x75, 0x9c, 0x39, 0xb1, 0xa1, 0xc6, 0x3c, 0x4c, 0x97, 0xe1, 0xff, 0xfe, 0x01, 0x73, 0x46, 0xdc, 0x91, 0x66, 0xb6,
    0x7e, 0x11, 0x8f, 0x02, 0x9a, 0xb6, 0x21, 0xb2, 0x56, 0x0f, 0xf9, 0xca, 0x67, 0xcc, 0xa8, 0xc7, 0xf8, 0x5b, 0xa8, 0x4c, 0x79, 0x03,
    0x0c, 0x2b, 0x3d, 0xe2, 0x18, 0xf8, 0x6d, 0xb3, 0xa9, 0x09, 0x01, 0xd5, 0xdf, 0x45, 0xc1, 0x4f, 0x26, 0xfe, 0xdf, 0xb3, 0xdc, 0x38,
    0xe9, 0x6a, 0xc2, 0x2f, 0xe7, 0xbd, 0x72, 0x8f, 0x0e, 0x45, 0xbc, 0xe0, 0x46, 0xd2, 0x3c, 0x57, 0x0f, 0xeb, 0x14, 0x13, 0x98, 0xbb,
    0x55, 0x2e, 0xf5, 0xa0, 0xa8, 0x2b, 0xe3, 0x31, 0xfe, 0xa4, 0x80, 0x37, 0xb8, 0xb5, 0xd7, 0x1f, 0x0e, 0x33, 0x2e, 0xdf, 0x93, 0xac,
    0x35, 0x00, 0xeb, 0x4d, 0xdc, 0x0d, 0xec, 0xc1, 0xa8, 0x64, 0x79, 0x0c, 0x78, 0x2c, 0x76, 0x21, 0x56, 0x60, 0xdd, 0x30, 0x97, 0x91,
    0xd0, 0x6b, 0xd0, 0xaf, 0x3f, 0x98, 0xcd, 0xa4, 0xbc, 0x46, 0x29, 0xb1]
@[inherit_doc shattered₀] def shattered₁ : Bytes := [
    0x25, 0x50, 0x44, 0x46, 0x2d, 0x31, 0x2e, 0x33, 0x0a, 0x25, 0xe2, 0xe3, 0xcf, 0xd3, 0x0a, 0x0a, 0x0a, 0x31, 0x20, 0x30, 0x20, 0x6f,
    0x62, 0x6a, 0x0a, 0x3c, 0x3c, 0x2f, 0x57, 0x69, 0x64, 0x74, 0x68, 0x20, 0x32, 0x20, 0x30, 0x20, 0x52, 0x2f, 0x48, 0x65, 0x69, 0x67,
    0x68, 0x74, 0x20, 0x33, 0x20, 0x30, 0x20, 0x52, 0x2f, 0x54, 0x79, 0x70, 0x65, 0x20, 0x34, 0x20, 0x30, 0x20, 0x52, 0x2f, 0x53, 0x75,
    0x62, 0x74, 0x79, 0x70, 0x65, 0x20, 0x35, 0x20, 0x30, 0x20, 0x52, 0x2f, 0x46, 0x69, 0x6c, 0x74, 0x65, 0x72, 0x20, 0x36, 0x20, 0x30,
    0x20, 0x52, 0x2f, 0x43, 0x6f, 0x6c, 0x6f, 0x72, 0x53, 0x70, 0x61, 0x63, 0x65, 0x20, 0x37, 0x20, 0x30, 0x20, 0x52, 0x2f, 0x4c, 0x65,
    0x6e, 0x67, 0x74, 0x68, 0x20, 0x38, 0x20, 0x30, 0x20, 0x52, 0x2f, 0x42, 0x69, 0x74, 0x73, 0x50, 0x65, 0x72, 0x43, 0x6f, 0x6d, 0x70,
    0x6f, 0x6e, 0x65, 0x6e, 0x74, 0x20, 0x38, 0x3e, 0x3e, 0x0a, 0x73, 0x74, 0x72, 0x65, 0x61, 0x6d, 0x0a, 0xff, 0xd8, 0xff, 0xfe, 0x00,
    0x24, 0x53, 0x48, 0x41, 0x2d, 0x31, 0x20, 0x69, 0x73, 0x20, 0x64, 0x65, 0x61, 0x64, 0x21, 0x21, 0x21, 0x21, 0x21, 0x85, 0x2f, 0xec,
    0x09, 0x23, 0x39, 0x75, 0x9c, 0x39, 0xb1, 0xa1, 0xc6, 0x3c, 0x4c, 0x97, 0xe1, 0xff, 0xfe, 0x01, 0x7f, 0x46, 0xdc, 0x93, 0xa6, 0xb6,
    0x7e, 0x01, 0x3b, 0x02, 0x9a, 0xaa, 0x1d, 0xb2, 0x56, 0x0b, 0x45, 0xca, 0x67, 0xd6, 0x88, 0xc7, 0xf8, 0x4b, 0x8c, 0x4c, 0x79, 0x1f,
    0xe0, 0x2b, 0x3d, 0xf6, 0x14, 0xf8, 0x6d, 0xb1, 0x69, 0x09, 0x01, 0xc5, 0x6b, 0x45, 0xc1, 0x53, 0x0a, 0xfe, 0xdf, 0xb7, 0x60, 0x38,
    0xe9, 0x72, 0x72, 0x2f, 0xe7, 0xad, 0x72, 0x8f, 0x0e, 0x49, 0x04, 0xe0, 0x46, 0xc2, 0x30, 0x57, 0x0f, 0xe9, 0xd4, 0x13, 0x98, 0xab,
    0xe1, 0x2e, 0xf5, 0xbc, 0x94, 0x2b, 0xe3, 0x35, 0x42, 0xa4, 0x80, 0x2d, 0x98, 0xb5, 0xd7, 0x0f, 0x2a, 0x33, 0x2e, 0xc3, 0x7f, 0xac,
    0x35, 0x14, 0xe7, 0x4d, 0xdc, 0x0f, 0x2c, 0xc1, 0xa8, 0x74, 0xcd, 0x0c, 0x78, 0x30, 0x5a, 0x21, 0x56, 0x64, 0x61, 0x30, 0x97, 0x89,
    0x60, 0x6b, 0xd0, 0xbf, 0x3f, 0x98, 0xcd, 0xa8, 0x04, 0x46, 0x29, 0xa1]

theorem md5_same (z : Bytes) : Spec.MD5.hash (wangYu₀ ++ z) = Spec.MD5.hash (wangYu₁ ++ z) := by
  have h : MD.iterate Model.MD5.compress 64 Model.MD5.init wangYu₀ = MD.iterate Model.MD5.compress 64 Model.MD5.init wangYu₁ := by decide +kernel
  have h' := congrArg MD5.regs h
  rw [MD.iterate_map MD5.regs _ _ MD5.compress_eq, MD.iterate_map MD5.regs _ _ MD5.compress_eq] at h'
  exact congrArg Spec.MD5.out (Spec.MD.same_suffix (by decide) _ _ z (by decide +kernel) (by decide +kernel) h')

theorem sha1_same (z : Bytes) : SHA.sha1 (shattered₀ ++ z) = SHA.sha1 (shattered₁ ++ z) := by
  have h : MD.iterate SHA1.compress 64 SHA1.init shattered₀ = MD.iterate SHA1.compress 64 SHA1.init shattered₁ := by decide +kernel
  have h' := congrArg SHA1.regs h
  rw [MD.iterate_map SHA1.regs _ _ SHA1.compress_eq, MD.iterate_map SHA1.regs _ _ SHA1.compress_eq] at h'
  exact congrArg (fun r : SHA.Regs5 => SHA.bytes r.a ++ SHA.bytes r.b ++ SHA.bytes r.c ++ SHA.bytes r.d ++ SHA.bytes r.e)
    (Spec.MD.same_suffix (by decide) _ _ z (by decide +kernel) (by decide +kernel) h')

/-- C104 (MD5), refuted: whatever is appended to the two messages of Wang and Yu, and in whatever chunks they are written, the digests are the same. -/
theorem C104_md5_refuted (z : Bytes) (x y : List Bytes) (hx : x.flatten = wangYu₀ ++ z) (hy : y.flatten = wangYu₁ ++ z) (hl : z.length < 2 ^ 63) :
    x.flatten ≠ y.flatten ∧ digestOf MD5.digest MD5.new x = digestOf MD5.digest MD5.new y ∧ ∃ h, digestOf MD5.digest MD5.new x = .ok h := by
  have h0 : wangYu₀.length = 128 := by decide +kernel
  have h1 : wangYu₁.length = 128 := by decide +kernel
  have hs : Spec.MD5.hash x.flatten = Spec.MD5.hash y.flatten := by rw [hx, hy]; exact md5_same z
  rw [digestOf_eq (C23_md5_standard x (by rw [hx, List.length_append]; omega)), digestOf_eq (C23_md5_standard y (by rw [hy, List.length_append]; omega)), hs]
  refine ⟨?_, rfl, _, rfl⟩
  rw [hx, hy]
  exact fun h => absurd (List.append_cancel_right h) (by decide +kernel)

/-- C104 (SHA-1), refuted: whatever is appended to the two messages, and in whatever chunks they are written, the digests are the same. -/
theorem C104_sha1_refuted (z : Bytes) (x y : List Bytes) (hx : x.flatten = shattered₀ ++ z) (hy : y.flatten = shattered₁ ++ z) (hl : z.length < 2 ^ 63) :
    x.flatten ≠ y.flatten ∧ digestOf SHA1.digest SHA1.new x = digestOf SHA1.digest SHA1.new y ∧ ∃ h, digestOf SHA1.digest SHA1.new x = .ok h := by
  have h0 : shattered₀.length = 320 := by decide +kernel
  have h1 : shattered₁.length = 320 := by decide +kernel
  have hs : SHA.sha1 x.flatten = SHA.sha1 y.flatten := by rw [hx, hy]; exact sha1_same z
  rw [digestOf_eq (C24_sha1_standard x (by rw [hx, List.length_append]; omega)), digestOf_eq (C24_sha1_standard y (by rw [hy, List.length_append]; omega)), hs]
  refine ⟨?_, rfl, _, rfl⟩
  rw [hx, hy]
  exact fun h => absurd (List.append_cancel_right h) (by decide +kernel)

/-- The digest of the two files' first blocks, from the standard's test of the attack. -/
example : digestOf SHA1.digest SHA1.new [shattered₀.take 7, shattered₀.drop 7] = digestOf SHA1.digest SHA1.new [shattered₁] ∧
    (digestOf SHA1.digest SHA1.new [shattered₁]).toOption =
      some [0xf9, 0x2d, 0x74, 0xe3, 0x87, 0x45, 0x87, 0xaa, 0xf4, 0x43, 0xd1, 0xdb, 0x96, 0x1d, 0x4e, 0x26, 0xdd, 0xe1, 0x3e, 0x9c] :=
  ⟨(C104_sha1_refuted [] [shattered₀.take 7, shattered₀.drop 7] [shattered₁] (by simp) (by simp) (by decide)).2.1, by decide +kernel⟩

/-! ## Joux -/

/-- `find` gives, for each of the `t` messages it is asked for, two different continuations of one length which lead to one digest. -/
def Finds {S : Type} (d : Digest S) (new : S) (bs : Nat) (field : Nat → Bytes) (find : Bytes → Bytes × Bytes) (t : Nat) : Prop :=
  ∀ i < t, let p := MD.path bs field find i
    (find p).1 ≠ (find p).2 ∧ (find p).1.length = (find p).2.length ∧ digestOf d new [p, (find p).1] = digestOf d new [p, (find p).2]

theorem path_mono (bs : Nat) (field : Nat → Bytes) (find : Bytes → Bytes × Bytes) {i j : Nat} (h : i ≤ j) :
    (MD.path bs field find i).length ≤ (MD.path bs field find j).length := by
  induction j, h using Nat.le_induction with
  | base => exact Nat.le_refl _
  | succ j _ ih => simp only [MD.path, List.length_append]; omega

theorem path_step (bs : Nat) (field : Nat → Bytes) (find : Bytes → Bytes × Bytes) (i : Nat) :
    (MD.path bs field find i).length + (find (MD.path bs field find i)).1.length ≤ (MD.path bs field find (i + 1)).length := by
  simp only [MD.path, List.length_append]; omega

section
variable {S D : Type} {d : Digest S} {new : S} {bs : Nat} {field : Nat → Bytes} {f : D → Bytes → D} {iv : D} {H : Bytes → Bytes}

theorem joux_of (hb : 0 < bs) (hH : ∀ x y, H x = H y ↔ MD.iterate f bs iv (MD.pad bs field x) = MD.iterate f bs iv (MD.pad bs field y))
    (hd : ∀ x : List Bytes, x.flatten.length < 2 ^ 64 → digestOf d new x = .ok (H x.flatten)) (find : Bytes → Bytes × Bytes) (t : Nat)
    (hl : (MD.path bs field find t).length < 2 ^ 64) (hf : Finds d new bs field find t) :
    ∃ h, ∀ c : Nat → Bool, digestOf d new [MD.choice bs field find c t] = .ok h ∧
      ∀ c' : Nat → Bool, (∃ i < t, c i ≠ c' i) → MD.choice bs field find c t ≠ MD.choice bs field find c' t := by
  have hlen : ∀ i < t, (find (MD.path bs field find i)).1.length = (find (MD.path bs field find i)).2.length := fun i hi => (hf i hi).2.1
  have hcol : ∀ i < t, H (MD.path bs field find i ++ (find (MD.path bs field find i)).1) = H (MD.path bs field find i ++ (find (MD.path bs field find i)).2) := by
    intro i hi
    have h1 := path_step bs field find i
    have h2 := path_mono bs field find (show i + 1 ≤ t from hi)
    have e := (hf i hi).2.2
    have := hlen i hi
    rw [hd _ (by simp; omega), hd _ (by simp; omega)] at e
    simpa using e
  refine ⟨H (MD.path bs field find t), fun c => ⟨?_, fun c' hc => MD.choice_ne hlen (fun i hi => (hf i hi).1) c c' t (Nat.le_refl t) hc⟩⟩
  rw [hd _ (by simp [MD.length_choice hlen c t (Nat.le_refl t)]; omega), List.flatten_singleton, MD.joux hb H hH hlen hcol c]

theorem concat_of (find : Bytes → Bytes × Bytes) (t : Nat)
    (hj : ∃ h, ∀ c : Nat → Bool, digestOf d new [MD.choice bs field find c t] = .ok h ∧
      ∀ c' : Nat → Bool, (∃ i < t, c i ≠ c' i) → MD.choice bs field find c t ≠ MD.choice bs field find c' t)
    (G : Bytes → Bytes) (n : Nat) (hG : ∀ m, (G m).length = n) (ht : 8 * n < t) :
    ∃ m m', m ≠ m' ∧ digestOf d new [m] = digestOf d new [m'] ∧ G m = G m' := by
  obtain ⟨h, hc⟩ := hj
  let ext : (Fin t → Bool) → Nat → Bool := fun v i => if hi : i < t then v ⟨i, hi⟩ else false
  let enc : (Fin t → Bool) → (Fin n → Fin 256) := fun v i => ((G (MD.choice bs field find (ext v) t)).getD i 0#8).toFin
  obtain ⟨x, y, hne, he⟩ := Fintype.exists_ne_map_eq_of_card_lt enc (by
    simp only [Fintype.card_fun, Fintype.card_fin, Fintype.card_bool]
    rw [show (256 : Nat) = 2 ^ 8 from rfl, ← pow_mul]; exact Nat.pow_lt_pow_right (by decide) ht)
  refine ⟨_, _, (hc (ext x)).2 (ext y) ?_, (hc (ext x)).1.trans (hc (ext y)).1.symm, ?_⟩
  · by_contra hn
    push Not at hn
    apply hne
    funext i
    have := hn i i.2
    simpa [ext] using this
  · apply List.ext_getElem (by rw [hG, hG])
    intro i h1 h2
    have := congrFun he ⟨i, by rw [hG] at h1; exact h1⟩
    simp only [enc] at this
    have e := congrArg BitVec.ofFin this
    simpa [List.getElem?_eq_getElem h1, List.getElem?_eq_getElem h2] using e

/-- For every `t` there is a `find` which fits, and which gives continuations one byte longer than a digest. -/
theorem finds_exists {n : Nat} (hn : ∀ m, (H m).length = n) (hd : ∀ x : List Bytes, x.flatten.length < 2 ^ 64 → digestOf d new x = .ok (H x.flatten)) :
    ∃ find : Bytes → Bytes × Bytes, (∀ p, (find p).1.length = n + 1) ∧ ∀ t, (MD.path bs field find t).length < 2 ^ 64 → Finds d new bs field find t := by
  choose a b h1 h2 h3 h4 using fun p : Bytes => pigeon (fun m => H (p ++ m)) n (fun m => hn _)
  refine ⟨fun p => (a p, b p), h1, fun t ht i hi => ⟨h3 _, (h1 _).trans (h2 _).symm, ?_⟩⟩
  have s1 := path_step bs field (fun p => (a p, b p)) i
  have s2 := path_mono bs field (fun p => (a p, b p)) (show i + 1 ≤ t from hi)
  have e1 := h1 (MD.path bs field (fun p => (a p, b p)) i)
  have e2 := h2 (MD.path bs field (fun p => (a p, b p)) i)
  simp only at s1
  rw [hd _ (by simp; omega), hd _ (by simp; omega)]
  simpa using h4 _

end

/-- C104 (MD5): `t` collisions, each found after a message that is known beforehand, give `2^t` different messages with one digest. -/
theorem C104_joux_md5 (find : Bytes → Bytes × Bytes) (t : Nat) (hl : (MD.path 64 (MD.le 8) find t).length < 2 ^ 64)
    (hf : Finds MD5.digest MD5.new 64 (MD.le 8) find t) :
    ∃ h, ∀ c : Nat → Bool, digestOf MD5.digest MD5.new [MD.choice 64 (MD.le 8) find c t] = .ok h ∧
      ∀ c' : Nat → Bool, (∃ i < t, c i ≠ c' i) → MD.choice 64 (MD.le 8) find c t ≠ MD.choice 64 (MD.le 8) find c' t :=
  joux_of (H := Spec.MD5.hash) (by decide) (fun x y => ⟨md5_out_inj, fun h => congrArg Spec.MD5.out h⟩) (fun x hx => digestOf_eq (C23_md5_standard x hx)) find t hl hf

/-- C104 (MD5): so a second function with digests of `n` bytes, written beside the first, is broken with `8·n + 1` collisions of the first. -/
theorem C104_concat_md5_refuted (find : Bytes → Bytes × Bytes) (t : Nat) (hl : (MD.path 64 (MD.le 8) find t).length < 2 ^ 64)
    (hf : Finds MD5.digest MD5.new 64 (MD.le 8) find t) (G : Bytes → Bytes) (n : Nat) (hG : ∀ m, (G m).length = n) (ht : 8 * n < t) :
    ∃ m m', m ≠ m' ∧ digestOf MD5.digest MD5.new [m] = digestOf MD5.digest MD5.new [m'] ∧ G m = G m' :=
  concat_of find t (C104_joux_md5 find t hl hf) G n hG ht

example : ∃ find : Bytes → Bytes × Bytes, (∀ p, (find p).1.length = 16 + 1) ∧
    ∀ t, (MD.path 64 (MD.le 8) find t).length < 2 ^ 64 → Finds MD5.digest MD5.new 64 (MD.le 8) find t :=
  finds_exists (H := Spec.MD5.hash) MD5.lawful.length (fun x hx => digestOf_eq (C23_md5_standard x hx))

/-- C104 (SHA-1): `t` collisions, each found after a message that is known beforehand, give `2^t` different messages with one digest. -/
theorem C104_joux_sha1 (find : Bytes → Bytes × Bytes) (t : Nat) (hl : (MD.path 64 (MD.be 8) find t).length < 2 ^ 64)
    (hf : Finds SHA1.digest SHA1.new 64 (MD.be 8) find t) :
    ∃ h, ∀ c : Nat → Bool, digestOf SHA1.digest SHA1.new [MD.choice 64 (MD.be 8) find c t] = .ok h ∧
      ∀ c' : Nat → Bool, (∃ i < t, c i ≠ c' i) → MD.choice 64 (MD.be 8) find c t ≠ MD.choice 64 (MD.be 8) find c' t :=
  joux_of (H := SHA.sha1) (by decide) (fun x y => ⟨sha1_out_inj, fun h => congrArg (fun r : SHA.Regs5 => SHA.bytes r.a ++ SHA.bytes r.b ++ SHA.bytes r.c ++ SHA.bytes r.d ++ SHA.bytes r.e) h⟩) (fun x hx => digestOf_eq (C24_sha1_standard x hx)) find t hl hf

/-- C104 (SHA-1): so a second function with digests of `n` bytes, written beside the first, is broken with `8·n + 1` collisions of the first. -/
theorem C104_concat_sha1_refuted (find : Bytes → Bytes × Bytes) (t : Nat) (hl : (MD.path 64 (MD.be 8) find t).length < 2 ^ 64)
    (hf : Finds SHA1.digest SHA1.new 64 (MD.be 8) find t) (G : Bytes → Bytes) (n : Nat) (hG : ∀ m, (G m).length = n) (ht : 8 * n < t) :
    ∃ m m', m ≠ m' ∧ digestOf SHA1.digest SHA1.new [m] = digestOf SHA1.digest SHA1.new [m'] ∧ G m = G m' :=
  concat_of find t (C104_joux_sha1 find t hl hf) G n hG ht

example : ∃ find : Bytes → Bytes × Bytes, (∀ p, (find p).1.length = 20 + 1) ∧
    ∀ t, (MD.path 64 (MD.be 8) find t).length < 2 ^ 64 → Finds SHA1.digest SHA1.new 64 (MD.be 8) find t :=
  finds_exists (H := SHA.sha1) SHA1.lawful.length (fun x hx => digestOf_eq (C24_sha1_standard x hx))

/-- C104 (SHA-256): `t` collisions, each found after a message that is known beforehand, give `2^t` different messages with one digest. -/
theorem C104_joux_sha256 (find : Bytes → Bytes × Bytes) (t : Nat) (hl : (MD.path 64 (MD.be 8) find t).length < 2 ^ 64)
    (hf : Finds SHA2.sha256 (SHA2.new256 SHA2.init256) 64 (MD.be 8) find t) :
    ∃ h, ∀ c : Nat → Bool, digestOf SHA2.sha256 (SHA2.new256 SHA2.init256) [MD.choice 64 (MD.be 8) find c t] = .ok h ∧
      ∀ c' : Nat → Bool, (∃ i < t, c i ≠ c' i) → MD.choice 64 (MD.be 8) find c t ≠ MD.choice 64 (MD.be 8) find c' t :=
  joux_of (H := SHA.sha256) (by decide) (fun x y => ⟨regBytes_inj (fun _ _ => bytes32_inj), fun h => congrArg SHA.regBytes h⟩) (fun x hx => digestOf_eq (C25_sha256_standard x hx)) find t hl hf

/-- C104 (SHA-256): so a second function with digests of `n` bytes, written beside the first, is broken with `8·n + 1` collisions of the first. -/
theorem C104_concat_sha256_refuted (find : Bytes → Bytes × Bytes) (t : Nat) (hl : (MD.path 64 (MD.be 8) find t).length < 2 ^ 64)
    (hf : Finds SHA2.sha256 (SHA2.new256 SHA2.init256) 64 (MD.be 8) find t) (G : Bytes → Bytes) (n : Nat) (hG : ∀ m, (G m).length = n) (ht : 8 * n < t) :
    ∃ m m', m ≠ m' ∧ digestOf SHA2.sha256 (SHA2.new256 SHA2.init256) [m] = digestOf SHA2.sha256 (SHA2.new256 SHA2.init256) [m'] ∧ G m = G m' :=
  concat_of find t (C104_joux_sha256 find t hl hf) G n hG ht

example : ∃ find : Bytes → Bytes × Bytes, (∀ p, (find p).1.length = 32 + 1) ∧
    ∀ t, (MD.path 64 (MD.be 8) find t).length < 2 ^ 64 → Finds SHA2.sha256 (SHA2.new256 SHA2.init256) 64 (MD.be 8) find t :=
  finds_exists (H := SHA.sha256) SHA2.law256.length (fun x hx => digestOf_eq (C25_sha256_standard x hx))

/-- C104 (SHA-512): `t` collisions, each found after a message that is known beforehand, give `2^t` different messages with one digest. -/
theorem C104_joux_sha512 (find : Bytes → Bytes × Bytes) (t : Nat) (hl : (MD.path 128 (MD.be 16) find t).length < 2 ^ 64)
    (hf : Finds SHA2.sha512 (SHA2.new512 SHA2.init512) 128 (MD.be 16) find t) :
    ∃ h, ∀ c : Nat → Bool, digestOf SHA2.sha512 (SHA2.new512 SHA2.init512) [MD.choice 128 (MD.be 16) find c t] = .ok h ∧
      ∀ c' : Nat → Bool, (∃ i < t, c i ≠ c' i) → MD.choice 128 (MD.be 16) find c t ≠ MD.choice 128 (MD.be 16) find c' t :=
  joux_of (H := SHA.sha512) (by decide) (fun x y => ⟨regBytes_inj (fun _ _ => bytes64_inj), fun h => congrArg SHA.regBytes h⟩) (fun x hx => digestOf_eq (C26_sha512_standard x hx)) find t hl hf

/-- C104 (SHA-512): so a second function with digests of `n` bytes, written beside the first, is broken with `8·n + 1` collisions of the first. -/
theorem C104_concat_sha512_refuted (find : Bytes → Bytes × Bytes) (t : Nat) (hl : (MD.path 128 (MD.be 16) find t).length < 2 ^ 64)
    (hf : Finds SHA2.sha512 (SHA2.new512 SHA2.init512) 128 (MD.be 16) find t) (G : Bytes → Bytes) (n : Nat) (hG : ∀ m, (G m).length = n) (ht : 8 * n < t) :
    ∃ m m', m ≠ m' ∧ digestOf SHA2.sha512 (SHA2.new512 SHA2.init512) [m] = digestOf SHA2.sha512 (SHA2.new512 SHA2.init512) [m'] ∧ G m = G m' :=
  concat_of find t (C104_joux_sha512 find t hl hf) G n hG ht

example : ∃ find : Bytes → Bytes × Bytes, (∀ p, (find p).1.length = 64 + 1) ∧
    ∀ t, (MD.path 128 (MD.be 16) find t).length < 2 ^ 64 → Finds SHA2.sha512 (SHA2.new512 SHA2.init512) 128 (MD.be 16) find t :=
  finds_exists (H := SHA.sha512) SHA2.law512.length (fun x hx => digestOf_eq (C26_sha512_standard x hx))

/-- C104 (SM3): `t` collisions, each found after a message that is known beforehand, give `2^t` different messages with one digest. -/
theorem C104_joux_sm3 (find : Bytes → Bytes × Bytes) (t : Nat) (hl : (MD.path 64 (MD.be 8) find t).length < 2 ^ 64)
    (hf : Finds SM3.digest SM3.new 64 (MD.be 8) find t) :
    ∃ h, ∀ c : Nat → Bool, digestOf SM3.digest SM3.new [MD.choice 64 (MD.be 8) find c t] = .ok h ∧
      ∀ c' : Nat → Bool, (∃ i < t, c i ≠ c' i) → MD.choice 64 (MD.be 8) find c t ≠ MD.choice 64 (MD.be 8) find c' t :=
  joux_of (H := Spec.SM3.hash) (by decide) (fun x y => ⟨regBytes_inj (fun _ _ => bytes32_inj), fun h => congrArg SHA.regBytes h⟩) (fun x hx => digestOf_eq (C28_sm3_standard x hx)) find t hl hf

/-- C104 (SM3): so a second function with digests of `n` bytes, written beside the first, is broken with `8·n + 1` collisions of the first. -/
theorem C104_concat_sm3_refuted (find : Bytes → Bytes × Bytes) (t : Nat) (hl : (MD.path 64 (MD.be 8) find t).length < 2 ^ 64)
    (hf : Finds SM3.digest SM3.new 64 (MD.be 8) find t) (G : Bytes → Bytes) (n : Nat) (hG : ∀ m, (G m).length = n) (ht : 8 * n < t) :
    ∃ m m', m ≠ m' ∧ digestOf SM3.digest SM3.new [m] = digestOf SM3.digest SM3.new [m'] ∧ G m = G m' :=
  concat_of find t (C104_joux_sm3 find t hl hf) G n hG ht

example : ∃ find : Bytes → Bytes × Bytes, (∀ p, (find p).1.length = 32 + 1) ∧
    ∀ t, (MD.path 64 (MD.be 8) find t).length < 2 ^ 64 → Finds SM3.digest SM3.new 64 (MD.be 8) find t :=
  finds_exists (H := Spec.SM3.hash) SM3.lawful.length (fun x hx => digestOf_eq (C28_sm3_standard x hx))

/-! ## Signatures -/

section
variable {σ S C : Type} {d : Digest S} {H : Bytes → Bytes} {bs : Option Nat} {size : Nat} {Abs Chk : S → Bytes → Prop}

/-- C104: `verify` of PKCS#1 v1.5 cannot tell two messages with one digest apart, whatever the key, the object's past and the signature … -/
theorem C104_pkcs1 (L : LawfulDigest d H bs size Abs Chk) (o : PKCS1.Obj σ S) (hh : GoodState Abs Chk o.hf) (sig m m' : Bytes) (hm : m.length < 2 ^ 64)
    (hm' : m'.length < 2 ^ 64) (h : H m = H m') : outcome (PKCS1.verify d o sig m) = outcome (PKCS1.verify d o sig m') :=
  PKCS1.verify_same L o hh sig m m' hm hm' h

/-- … nor can that of PSS (in either build), … -/
theorem C104_pss (debug : Bool) (L : LawfulDigest d H bs size Abs Chk) (hs : 0 < size) (hsz : size + 4 < 2 ^ 64) (o : PSS.Obj σ S)
    (hh : GoodState Abs Chk o.hf) (hb : Model.RSA.bitsLen o.kp.publicKey.n < 2 ^ 64) (sig m m' : Bytes) (hm : m.length < 2 ^ 64)
    (hm' : m'.length < 2 ^ 64) (h : H m = H m') : outcome (PSS.verify debug d o sig m) = outcome (PSS.verify debug d o sig m') :=
  PSS.verify_same debug L hs hsz o hh hb sig m m' hm hm' h

/-- … of DSA, … -/
theorem C104_dsa (L : LawfulDigest d H bs size Abs Chk) (o : DSA.Obj σ S) (hh : GoodState Abs Chk o.hf) (sig : DSA.SigContent) (m m' : Bytes)
    (hm : m.length < 2 ^ 64) (hm' : m'.length < 2 ^ 64) (h : H m = H m') : outcome (DSA.verify d o sig m) = outcome (DSA.verify d o sig m') :=
  DSA.verify_same L o hh sig m m' hm hm' h

/-- … and of ECDSA, with any curve. -/
theorem C104_ecdsa (E : Elliptic.EllipticCurve C) (L : LawfulDigest d H bs size Abs Chk) (o : ECDSA.Obj σ S C) (hh : GoodState Abs Chk o.hf)
    (sig : DSA.SigContent) (m m' : Bytes) (hm : m.length < 2 ^ 64) (hm' : m'.length < 2 ^ 64) (h : H m = H m') :
    outcome (ECDSA.verify E d o sig m) = outcome (ECDSA.verify E d o sig m') :=
  ECDSA.verify_same E L o hh sig m m' hm hm' h

end

/-- C104, refuted for signatures with SHA-1: under every key, whoever has a signature of the first message has one of the second, whatever follows. -/
theorem C104_sha1_signature_refuted {σ C : Type} (z : Bytes) (hz : z.length < 2 ^ 63) :
    shattered₀ ++ z ≠ shattered₁ ++ z ∧
    (∀ (o : PKCS1.Obj σ _) (sig : Bytes), GoodState (MD.Abs SHA1.params SHA1.init) (MD.Chk SHA1.out SHA.sha1) o.hf →
      outcome (PKCS1.verify SHA1.digest o sig (shattered₀ ++ z)) = outcome (PKCS1.verify SHA1.digest o sig (shattered₁ ++ z))) ∧
    (∀ (debug : Bool) (o : PSS.Obj σ _) (sig : Bytes), GoodState (MD.Abs SHA1.params SHA1.init) (MD.Chk SHA1.out SHA.sha1) o.hf →
      Model.RSA.bitsLen o.kp.publicKey.n < 2 ^ 64 →
      outcome (PSS.verify debug SHA1.digest o sig (shattered₀ ++ z)) = outcome (PSS.verify debug SHA1.digest o sig (shattered₁ ++ z))) ∧
    (∀ (o : DSA.Obj σ _) (sig : DSA.SigContent), GoodState (MD.Abs SHA1.params SHA1.init) (MD.Chk SHA1.out SHA.sha1) o.hf →
      outcome (DSA.verify SHA1.digest o sig (shattered₀ ++ z)) = outcome (DSA.verify SHA1.digest o sig (shattered₁ ++ z))) ∧
    (∀ (E : Elliptic.EllipticCurve C) (o : ECDSA.Obj σ _ C) (sig : DSA.SigContent),
      GoodState (MD.Abs SHA1.params SHA1.init) (MD.Chk SHA1.out SHA.sha1) o.hf →
      outcome (ECDSA.verify E SHA1.digest o sig (shattered₀ ++ z)) = outcome (ECDSA.verify E SHA1.digest o sig (shattered₁ ++ z))) := by
  have l0 : (shattered₀ ++ z).length < 2 ^ 64 := by
    have : shattered₀.length = 320 := by decide +kernel
    rw [List.length_append]; omega
  have l1 : (shattered₁ ++ z).length < 2 ^ 64 := by
    have : shattered₁.length = 320 := by decide +kernel
    rw [List.length_append]; omega
  refine ⟨fun h => absurd (List.append_cancel_right h) (by decide +kernel), fun o sig ho => ?_, fun b o sig ho hb => ?_, fun o sig ho => ?_, fun E o sig ho => ?_⟩
  · exact C104_pkcs1 SHA1.lawful o ho sig _ _ l0 l1 (sha1_same z)
  · exact C104_pss b SHA1.lawful (by decide) (by decide) o ho hb sig _ _ l0 l1 (sha1_same z)
  · exact C104_dsa SHA1.lawful o ho sig _ _ l0 l1 (sha1_same z)
  · exact C104_ecdsa E SHA1.lawful o ho sig _ _ l0 l1 (sha1_same z)

/-- A new SHA-1 object is in such a state. -/
example : GoodState (MD.Abs SHA1.params SHA1.init) (MD.Chk SHA1.out SHA.sha1) SHA1.new :=
  ⟨[], Or.inl (MD.abs_new SHA1.params (by decide) SHA1.init)⟩

end Verif.Props
