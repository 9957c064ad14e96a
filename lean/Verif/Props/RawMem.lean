import Verif.Model.RawMem

/-! Property C113: the code for x86 accesses memory only where it may -/

namespace Verif.Props
open Verif.Model Verif.Model.RawMem Verif.Spec.RawMem

private theorem aligned_one {pl : Place} {off len : Nat} {w : Bool} : Aligned ⟨pl, off, len, 1, w⟩ := fun _ _ => Nat.one_dvd _
private theorem allowed_read {pl : Place} {off len al : Nat} : Allowed ⟨pl, off, len, al, false⟩ := fun h => Bool.noConfusion h
private theorem sound_read {pl : Place} {off len : Nat} (h : off + len ≤ pl.size) : Sound ⟨pl, off, len, 1, false⟩ := ⟨h, aligned_one, allowed_read⟩
private theorem sound_reg {al : Nat} (h : al ∣ 16) : Sound ⟨reg, 0, 16, al, false⟩ :=
  ⟨Nat.le_refl _, fun _ hb => (Nat.dvd_trans h hb), allowed_read⟩
private theorem sound_buf : Sound ⟨buf16, 0, 16, 1, true⟩ := ⟨Nat.le_refl _, aligned_one, fun _ => rfl⟩

private theorem sched192_val (rcs : List (Byte × Byte)) (t1 t3 : AESNI.M128) : (sched192 rcs t1 t3).val = AESNI.sched192 rcs t1 t3 := by
  induction rcs generalizing t1 t3 with
  | nil => rfl
  | cons rc rcs ih => simp only [sched192, AESNI.sched192, bind, pure, cvtI2d, cvtD2i, ih]

private theorem sched192_sound (rcs : List (Byte × Byte)) (t1 t3 : AESNI.M128) : ∀ a ∈ (sched192 rcs t1 t3).acc, Sound a := by
  induction rcs generalizing t1 t3 with
  | nil => intro a ha; simp [sched192, pure] at ha
  | cons rc rcs ih =>
    intro a ha
    simp only [sched192, bind, pure, cvtI2d, cvtD2i, List.mem_append, List.mem_singleton, List.append_nil] at ha
    rcases ha with h | h | h | h | h | h | h
    · rw [h]; exact sound_reg (by decide)
    · rw [h]; exact sound_reg (by decide)
    · rw [h]; exact sound_reg (by decide)
    · rw [h]; exact sound_reg (by decide)
    · rw [h]; exact sound_reg (by decide)
    · rw [h]; exact sound_reg (by decide)
    · exact ih _ _ a h

/-- C113: the logged functions give the results of `Model/AESNI`, about which C22 speaks, for every key, block and object. -/
theorem C113_aes_values (beyond key b : Bytes) (a : AESNI.AES) :
    (RawMem.new beyond key).val = AESNI.new beyond key ∧ (RawMem.encrypt a b).val = (AESNI.cipher a).encrypt b ∧
    (RawMem.decrypt a b).val = (AESNI.cipher a).decrypt b := by
  refine ⟨?_, ?_, ?_⟩
  · have h192 : (RawMem.keySchedule192 key beyond).val = AESNI.keySchedule192 key beyond := by
      simp only [RawMem.keySchedule192, AESNI.keySchedule192, bind, pure, RawMem.loadu, RawMem.offset, sched192_val]
    simp only [RawMem.new, AESNI.new, ← h192]
    by_cases h1 : key.length = 16
    · rw [h1]; rfl
    by_cases h2 : key.length = 24
    · rw [h2]; rfl
    by_cases h3 : key.length = 32
    · rw [h3]; rfl
    split <;> first | contradiction | (split <;> first | contradiction | rfl)
  · simp only [RawMem.encrypt, AESNI.cipher]; split <;> rfl
  · simp only [RawMem.decrypt, AESNI.cipher]; split <;> rfl

/-- C113: encryption and decryption of a block access memory only where they may, for every object and every block, of whatever length. -/
theorem C113_aes_blocks (a : AESNI.AES) (b : Bytes) :
    (∀ x ∈ (RawMem.encrypt a b).acc, Sound x) ∧ (∀ x ∈ (RawMem.decrypt a b).acc, Sound x) := by
  constructor
  · intro x hx
    simp only [RawMem.encrypt] at hx
    split at hx
    · next h =>
      simp only [RawMem.cryptBlock, bind, pure, RawMem.loadu, RawMem.storeu, List.mem_append, List.mem_singleton, List.append_nil] at hx
      rcases hx with h' | h'
      · rw [h']; exact sound_read (by simp [bytes, h])
      · rw [h']; exact sound_buf
    · simp [pure] at hx
  · intro x hx
    simp only [RawMem.decrypt] at hx
    split at hx
    · next h =>
      simp only [RawMem.decryptBlock, bind, pure, RawMem.loadu, RawMem.storeu, List.mem_append, List.mem_singleton, List.append_nil] at hx
      rcases hx with h' | h'
      · rw [h']; exact sound_read (by simp [bytes, h])
      · rw [h']; exact sound_buf
    · simp [pure] at hx

/-- C113: making an object accesses memory only where it may, for every key whose length is not 24, whether the key is refused or not. -/
theorem C113_aes_new_partial (beyond key : Bytes) (hk : key.length ≠ 24) : ∀ x ∈ (RawMem.new beyond key).acc, Sound x := by
  intro x hx
  simp only [RawMem.new] at hx
  split at hx
  · next h =>
    simp only [RawMem.keySchedule128, bind, pure, RawMem.loadu, List.mem_singleton, List.append_nil] at hx
    rw [hx]; exact sound_read (by simp [bytes, h])
  · next h => exact absurd h hk
  · next h =>
    simp only [RawMem.keySchedule256, bind, pure, RawMem.loadu, RawMem.offset, List.mem_append, List.mem_singleton, List.append_nil] at hx
    rcases hx with h' | h' | h'
    · rw [h']; exact sound_read (by simp [bytes, h])
    · rw [h']; exact sound_read (by simp [bytes, h])
    · rw [h']; exact sound_read (by simp [bytes, h])
  · simp [pure] at hx

/-- C113, refuted: with a key of 24 bytes the constructor reads sixteen bytes from offset 16 of the array of 24 bytes: eight bytes beyond its end,
for every such key. All other accesses are sound. -/
theorem C113_aes192_refuted (beyond key : Bytes) (hk : key.length = 24) :
    ∃ x ∈ (RawMem.new beyond key).acc, x.place = { size := 24, align := 1, writable := false } ∧ x.off = 16 ∧ x.len = 16 ∧ ¬ InBounds x ∧
      ∀ y ∈ (RawMem.new beyond key).acc, y ≠ x → Sound y := by
  have e : RawMem.new beyond key = (do
      let enc ← RawMem.keySchedule192 key beyond
      pure (.ok { encKs := enc, decKs := AESNI.genDecKey enc 12, nr := 12 }) : Log (Res AESNI.AES)) := by
    simp only [RawMem.new, hk]
  have hb : bytes key = { size := 24, align := 1, writable := false } := by simp [bytes, hk]
  refine ⟨{ place := bytes key, off := 16, len := 16, align := 1, write := false }, ?_, hb, rfl, rfl, by simp [InBounds, hb], fun y hy hne => ?_⟩
  · rw [e]
    simp only [RawMem.keySchedule192, bind, pure, RawMem.loadu, RawMem.offset, List.mem_append, List.mem_singleton, true_or, or_true]
  · rw [e] at hy
    simp only [RawMem.keySchedule192, bind, pure, RawMem.loadu, RawMem.offset, List.mem_append, List.mem_singleton, List.append_nil] at hy
    rcases hy with h | h | h | h
    · rw [h]; exact sound_read (by simp [hb])
    · rw [h]; exact sound_read (by simp [hb])
    · exact absurd h hne
    · exact sched192_sound _ _ _ y h

private theorem block_in {n pos : Nat} (h : pos + 64 ≤ n) : ∀ x ∈ blockAcc n pos, Sound x := by
  intro x hx
  simp only [blockAcc, load, move, List.mem_cons, List.not_mem_nil, or_false] at hx
  rcases hx with h' | h' | h' | h' | h' | h' | h' | h' <;> rw [h'] <;> exact sound_read (by simp only [data]; omega)

private theorem blocks_in {n : Nat} (k pos : Nat) (h : pos + 64 * k ≤ n) : ∀ x ∈ blocksAcc n k pos, Sound x := by
  induction k generalizing pos with
  | zero => intro x hx; simp [blocksAcc] at hx
  | succ k ih =>
    intro x hx
    rw [blocksAcc, List.mem_append] at hx
    exact hx.elim (block_in (by omega) x) (ih _ (by omega) x)

private theorem whole (n : Nat) : 0 + 64 * (n >>> 6) ≤ n := by rw [Nat.shiftRight_eq_div_pow]; omega

/-- C113, the hash functions that no build contains: for data of every length, SHA-1 and SHA-256 read and write within their data and digest, and write
only the digest; all their accesses but the stores of sixteen bytes also have the alignment they demand. The stores of MD5 stay within their array. -/
theorem C113_hashes_partial (n : Nat) :
    (∀ x ∈ sha1Acc n, InBounds x ∧ Allowed x ∧ (x.write = false ∨ x.len ≠ 16 → Aligned x)) ∧
    (∀ x ∈ sha256Acc n, InBounds x ∧ Allowed x ∧ (x.write = false ∨ x.len ≠ 16 → Aligned x)) ∧
    (∀ x ∈ md5Acc, InBounds x ∧ Aligned x) := by
  refine ⟨fun x hx => ?_, fun x hx => ?_, fun x hx => ?_⟩
  · rw [sha1Acc, List.mem_append, List.mem_append] at hx
    rcases hx with (h | h) | h
    · simp only [load, move, List.mem_cons, List.not_mem_nil, or_false] at h
      rcases h with h | h | h <;> subst h
      · exact ⟨by simp [InBounds, digest], allowed_read, fun _ => aligned_one⟩
      · exact ⟨by simp [InBounds, digest], allowed_read, fun _ => aligned_one⟩
      · exact ⟨by simp [InBounds, digest], allowed_read, fun _ b hb => Nat.dvd_add hb (by decide)⟩
    · exact ⟨(blocks_in _ _ (whole n) x h).1, (blocks_in _ _ (whole n) x h).2.2, fun _ => (blocks_in _ _ (whole n) x h).2.1⟩
    · simp only [move, List.mem_cons, List.not_mem_nil, or_false] at h
      rcases h with h | h | h <;> subst h
      · exact ⟨by simp [InBounds, digest], fun _ => rfl, by simp⟩
      · exact ⟨by simp [InBounds, digest], allowed_read, fun _ => aligned_one⟩
      · exact ⟨by simp [InBounds, digest], fun _ => rfl, fun _ b hb => Nat.dvd_add hb (by decide)⟩
  · rw [sha256Acc, List.mem_append, List.mem_append] at hx
    rcases hx with (h | h) | h
    · simp only [load, move, List.mem_cons, List.not_mem_nil, or_false] at h
      rcases h with h | h | h <;> subst h <;> exact ⟨by simp [InBounds, digest], allowed_read, fun _ => aligned_one⟩
    · exact ⟨(blocks_in _ _ (whole n) x h).1, (blocks_in _ _ (whole n) x h).2.2, fun _ => (blocks_in _ _ (whole n) x h).2.1⟩
    · simp only [move, List.mem_cons, List.not_mem_nil, or_false] at h
      rcases h with h | h | h <;> subst h
      · exact ⟨by simp [InBounds, digest], fun _ => rfl, by simp⟩
      · exact ⟨by simp [InBounds, digest], allowed_read, fun _ => aligned_one⟩
      · exact ⟨by simp [InBounds, digest], fun _ => rfl, by simp⟩
  · rw [md5Acc, List.mem_replicate] at hx
    rw [hx.2]
    exact ⟨by simp [InBounds], aligned_one⟩

/-- C113, refuted for the disabled code: whatever the data, SHA-1 and SHA-256 store sixteen bytes with an instruction that demands an alignment of 16 into
an array of words, whose address need only be a multiple of 4; MD5 writes through a pointer that may only be read. -/
theorem C113_hashes_refuted (n : Nat) :
    (∃ x ∈ sha1Acc n, x.write = true ∧ ¬ Aligned x) ∧ (∃ x ∈ sha256Acc n, x.write = true ∧ ¬ Aligned x) ∧ (∃ x ∈ md5Acc, ¬ Allowed x) := by
  refine ⟨⟨{ place := digest 5, off := 0, len := 16, align := 16, write := true }, ?_, rfl, fun h => ?_⟩,
    ⟨{ place := digest 8, off := 0, len := 16, align := 16, write := true }, ?_, rfl, fun h => ?_⟩,
    ⟨{ place := { size := 16, align := 4, writable := false }, off := 0, len := 16, align := 1, write := true }, ?_, fun h => ?_⟩⟩
  · simp [sha1Acc]
  · exact absurd (h 4 (by decide)) (by decide)
  · simp [sha256Acc]
  · exact absurd (h 4 (by decide)) (by decide)
  · simp [md5Acc]
  · exact absurd (h rfl) (by decide)

/-! Concrete cases -/

/-- A key of 32 bytes: two loads and a pointer, none of them empty of content. -/
example : (RawMem.new [] (List.replicate 32 7#8)).acc = [⟨⟨32, 1, false⟩, 0, 16, 1, false⟩, ⟨⟨32, 1, false⟩, 16, 0, 1, false⟩, ⟨⟨32, 1, false⟩, 16, 16, 1, false⟩] := rfl
/-- A key of 24 bytes: three accesses to the key and four times six to registers. -/
example : (RawMem.new [] (List.replicate 24 7#8)).acc.length = 27 := rfl
/-- A block is loaded and the result stored. -/
example (a : AESNI.AES) : (RawMem.encrypt a (List.replicate 16 7#8)).acc.length = 2 := rfl
/-- 130 bytes are two blocks. -/
example : (sha1Acc 130).length = 22 ∧ (sha256Acc 64).length = 14 := by decide

end Verif.Props
