import Verif.Proof.IvObj
import Verif.Proof.Padding
import Verif.Proof.Toy

/-! Property C87 (objects whose `update_iv` failed) -/

namespace Verif.Props
open Verif.Model Verif.Spec

variable {c : BlockCipher} {E D : Bytes → Bytes} {ρ : Type}

/-! ## The IV of an object -/

/-- C87: a new object has an IV of one block. -/
theorem C87_new {n : Nat} (hc : c.blockSize = some n) (v : IvSource ρ) (r : ρ) (buf : Bytes) (o : IvObj ρ) (h : IvObj.new c v r buf = .ok o) :
    o.curIv.length = n := by
  unfold IvObj.new at h
  rcases hd : v.draw r buf with ⟨k, iv, r'⟩
  simp only [hd] at h
  cases k with
  | some k => cases h
  | none =>
    simp only [BlockCipher.bs, hc, Option.getD, Option.isSome, true_and] at h
    split at h
    · cases h
    · rename_i hl
      cases h
      exact Classical.not_not.1 hl

/-- What a call meant for the IV of the object, judging from its result. -/
def eventOf : IvCall → Res Bytes → IvEvent
  | _, .ok iv => .taken iv
  | .update, .error _ => .lost
  | .set _, .error _ => .refused

/-- C87: results of single calls, for every source. `update_iv` succeeds exactly if the source does and delivers one block; otherwise the error is that
of the source, or an inner error. `set_iv` takes exactly the IVs of one block. -/
theorem C87_results (m : IvMode) {n : Nat} (hc : c.blockSize = some n) (v : IvSource ρ) (o : IvObj ρ) :
    (∀ iv, (o.call m c v .update).1 = .ok iv ↔ (v.draw o.src o.curIv).1 = none ∧ (v.draw o.src o.curIv).2.1 = iv ∧ iv.length = n) ∧
    (∀ k, (v.draw o.src o.curIv).1 = some k → (o.call m c v .update).1 = .error (.err k)) ∧
    ((v.draw o.src o.curIv).1 = none → (v.draw o.src o.curIv).2.1.length ≠ n → (o.call m c v .update).1 = .error (.err .innerErr)) ∧
    (∀ iv, (o.call m c v (.set iv)).1 =
      if iv.length = n then .ok iv else .error (.err (match m with | .cbc => .invalidParameter | .cfb => .invalidParameter | .ofb => .innerErr))) := by
  refine ⟨fun iv => ?_, fun k hk => ?_, fun h0 hl => ?_, fun iv => ?_⟩
  · simp only [IvObj.call, IvObj.update_eq m hc]
    rcases v.draw o.src o.curIv with ⟨k, iv', r'⟩
    cases k with
    | some k => simp
    | none =>
      dsimp only
      by_cases hl : iv'.length = n
      · rw [if_pos hl]
        simp only [Except.ok.injEq, true_and]
        exact ⟨fun h => ⟨h, h ▸ hl⟩, fun h => h.1⟩
      · rw [if_neg hl]
        simp only [reduceCtorEq, true_and, false_iff]
        rintro ⟨rfl, h⟩
        exact hl h
  · simp only [IvObj.call, IvObj.update_eq m hc]
    rcases hd : v.draw o.src o.curIv with ⟨k', iv', r'⟩
    rw [hd] at hk
    dsimp only at hk
    subst hk
    rfl
  · simp only [IvObj.call, IvObj.update_eq m hc]
    rcases hd : v.draw o.src o.curIv with ⟨k', iv', r'⟩
    rw [hd] at h0 hl
    dsimp only at h0 hl
    subst h0
    dsimp only
    rw [if_neg hl]
  · simp only [IvObj.call, IvObj.set_eq m hc]
    by_cases hl : iv.length = n
    · rw [if_pos hl, if_pos hl]; rfl
    · rw [if_neg hl, if_neg hl]; cases m <;> rfl

/-- C87: for every source and every history of `update_iv` and `set_iv` calls, failed ones included: if the last IV taken was not lost since, it is what
the object uses, and it has one block. In particular a refused `set_iv` changes nothing, and one successful call is enough after any number of failures. -/
theorem C87_history (m : IvMode) {n : Nat} (hc : c.blockSize = some n) (v : IvSource ρ) (ks : List IvCall) (o : IvObj ρ) (cur : Option Bytes)
    (h0 : ∀ iv, cur = some iv → o.curIv = iv ∧ iv.length = n) (iv : Bytes)
    (h : ivInUse cur (List.zipWith eventOf ks (o.calls m c v ks).1) = some iv) :
    (o.calls m c v ks).2.curIv = iv ∧ iv.length = n := by
  induction ks generalizing o cur with
  | nil => exact h0 iv h
  | cons k ks ih =>
    simp only [IvObj.calls] at h ⊢
    cases k with
    | update =>
      simp only [IvObj.call, IvObj.update_eq m hc] at h ⊢
      rcases hd : v.draw o.src o.curIv with ⟨e, iv', r'⟩
      simp only [hd] at h
      cases e with
      | some e => exact ih _ none (fun _ h => by cases h) h
      | none =>
        dsimp only at h ⊢
        by_cases hl : iv'.length = n
        · rw [if_pos hl] at h
          exact ih _ (some iv') (fun x hx => by cases hx; exact ⟨rfl, hl⟩) h
        · rw [if_neg hl] at h
          exact ih _ none (fun _ h => by cases h) h
    | set iv' =>
      simp only [IvObj.call, IvObj.set_eq m hc] at h ⊢
      by_cases hl : iv'.length = n
      · rw [if_pos hl] at h ⊢
        exact ih _ (some iv') (fun x hx => by cases hx; exact ⟨rfl, hl⟩) h
      · rw [if_neg hl] at h ⊢
        exact ih _ cur h0 h

/-! ## The default source -/

/-- C87: what the default source leaves in the object. If its random source delivers the words `w 0, w 1, …`, the IV consists of the first words, most
significant byte first and cut to the block. If the random source fails before there are enough of them, the error is `RandError` and the object is
left with the words drawn before the failure, which are less than a block. -/
theorem C87_default (gen : ρ → Option (BitVec 32) × ρ) (n : Nat) (r : ρ) (buf : Bytes) (w : Nat → BitVec 32) :
    let next := fun r => (gen r).2
    ((∀ i < (n + 3) / 4, (gen (next^[i] r)).1 = some (w i)) →
      (defaultIv gen n).draw r buf = (none, ((List.range ((n + 3) / 4)).flatMap fun i => be32 (w i)).take n, next^[(n + 3) / 4] r)) ∧
    (∀ k < (n + 3) / 4, (∀ i < k, (gen (next^[i] r)).1 = some (w i)) → (gen (next^[k] r)).1 = none →
      (defaultIv gen n).draw r buf = (some .randError, (List.range k).flatMap fun i => be32 (w i), next^[k + 1] r) ∧
      ((List.range k).flatMap fun i => be32 (w i)).length < n) := by
  intro next
  refine ⟨fun h => ?_, fun k hk h he => ⟨?_, ?_⟩⟩
  · have := defaultLoop_ok gen n w _ r [] h
    rw [List.nil_append] at this
    exact this
  · have := defaultLoop_err gen n w k _ r [] hk h he
    rw [List.nil_append] at this
    exact this
  · rw [length_flatMap_be32]
    omega

/-- C87: with the default source an object has an IV of one block or, exactly after a failed `update_iv` that no successful call followed, less than a
block. -/
theorem C87_default_history (m : IvMode) {n : Nat} (hc : c.blockSize = some n) (gen : ρ → Option (BitVec 32) × ρ) (ks : List IvCall) (o : IvObj ρ)
    (cur : Option Bytes) (h0 : cur = none → o.curIv.length < n)
    (h : ivInUse cur (List.zipWith eventOf ks (o.calls m c (defaultIv gen n) ks).1) = none) :
    (o.calls m c (defaultIv gen n) ks).2.curIv.length < n := by
  induction ks generalizing o cur with
  | nil => exact h0 h
  | cons k ks ih =>
    simp only [IvObj.calls] at h ⊢
    cases k with
    | update =>
      simp only [IvObj.call, IvObj.update_eq m hc] at h ⊢
      have hd := defaultLoop_cases gen n ((n + 3) / 4) o.src [] (by simp; omega) (by simp; omega)
      change (((defaultIv gen n).draw o.src o.curIv).1 = none ∧ ((defaultIv gen n).draw o.src o.curIv).2.1.length = n) ∨
        (((defaultIv gen n).draw o.src o.curIv).1 = _ ∧ ((defaultIv gen n).draw o.src o.curIv).2.1.length < n) at hd
      rcases hd' : (defaultIv gen n).draw o.src o.curIv with ⟨e, iv', r'⟩
      simp only [hd'] at h hd
      rcases hd with ⟨rfl, hl⟩ | ⟨rfl, hl⟩
      · dsimp only at h ⊢
        rw [if_pos hl] at h
        exact ih _ (some iv') (fun h => by cases h) h
      · exact ih _ none (fun _ => hl) h
    | set iv' =>
      simp only [IvObj.call, IvObj.set_eq m hc] at h ⊢
      by_cases hl : iv'.length = n
      · rw [if_pos hl] at h ⊢
        exact ih _ (some iv') (fun h => by cases h) h
      · rw [if_neg hl] at h ⊢
        exact ih _ cur h0 h

/-! ## Objects without a proper IV -/

/-- C87: OFB without a proper IV refuses everything, through `encrypt`, `decrypt` and the streams (an empty stream delivers nothing). -/
theorem C87_ofb (h : Lawful c E D) (iv : Bytes) (hiv : iv.length ≠ c.bs) (x : Bytes) (ops : List (Bytes × Bool)) :
    OFB.encrypt c iv x = .error (.err .invalidParameter) ∧ OFB.decrypt c iv x = .error (.err .invalidParameter) ∧
    runStream (OFB.stream c iv) (OFB.init iv) ops = if written ops = [] then .ok ([], OFB.init iv) else .error (.err .invalidParameter) :=
  ⟨OFB.encrypt_bad h hiv x, OFB.encrypt_bad h hiv x, OFB.stream_bad h hiv ops⟩

/-- C87: CFB without a proper IV refuses everything of which there is at least one segment after padding, through `encrypt` and the stream. (Otherwise,
which needs a padding that adds nothing, it delivers nothing, as always.) -/
theorem C87_cfb_encrypt (h : Lawful c E D) (p : Padding) (s : Nat) (hs : 0 < s) (iv : Bytes) (hiv : iv.length ≠ c.bs) (x : Bytes) (ops : List (Bytes × Bool)) :
    (CFB.encrypt c p s iv x = if s ≤ x.length ∨ s ≤ (p.padding x).length then .error (.err .invalidParameter) else .ok []) ∧
    runStream (CFB.encStream c p s iv) (CFB.init iv) ops =
      if s ≤ (written ops).length ∨ s ≤ (p.padding (written ops)).length then .error (.err .invalidParameter) else .ok ([], CFB.init iv) :=
  ⟨CFB.encrypt_bad h hiv x, CFB.encStream_bad h hs hiv ops⟩

/-- C87: CFB without a proper IV refuses to decrypt anything, through `decrypt` and the stream. -/
theorem C87_cfb_decrypt (h : Lawful c E D) (p : Padding) (s : Nat) (hs : 0 < s) (iv : Bytes) (hiv : iv.length ≠ c.bs) (x : Bytes) (hx : x ≠ [])
    (ops : List (Bytes × Bool)) (hw : written ops ≠ []) :
    CFB.decrypt c p s iv x = .error (.err .invalidParameter) ∧
    runStream (CFB.decStream c p s iv) (CFB.init iv) ops = .error (.err .invalidParameter) :=
  ⟨CFB.decrypt_bad h hiv hx, CFB.decStream_bad h hs hiv ops hw⟩

/-- C87: CBC without a proper IV refuses to encrypt messages of at least one block through `encrypt`. Shorter messages it encrypts as if nothing had
happened, because `CBC::encrypt` does not use the IV for them at all. -/
theorem C87_cbc_encrypt (h : Lawful c E D) (p : Padding) (iv : Bytes) (hiv : iv.length ≠ c.bs) (x : Bytes) :
    (c.bs ≤ x.length → CBC.encrypt c p iv x = .error (.err .invalidParameter)) ∧
    (x.length < c.bs → ∀ iv', CBC.encrypt c p iv x = CBC.encrypt c p iv' x) :=
  ⟨CBC.encrypt_bad h hiv, fun hx iv' => CBC.encrypt_short iv iv' hx⟩

/-- C87: the CBC encryption stream with a short IV refuses everything that is not empty after padding. -/
theorem C87_cbc_encrypt_stream (h : Lawful c E D) (p : Padding) (iv : Bytes) (hiv : iv.length < c.bs) (ops : List (Bytes × Bool)) :
    runStream (CBC.encStream c p iv) (CBC.init iv) ops =
      if (written ops).length < c.bs ∧ p.padding (written ops) = [] then .ok ([], CBC.init iv) else .error (.err .invalidParameter) :=
  CBC.encStream_bad h hiv ops

/-- C87: what CBC decryption does with a short IV. `decrypt` reports no error on account of it: of the first block only as many bytes as the IV has are
delivered, xored with it; the other blocks are delivered as usual. -/
theorem C87_cbc_decrypt (h : Lawful c E D) (p : Padding) (iv : Bytes) (b : Bytes) (blocks : List Bytes) (hb : b.length = c.bs)
    (hbs : IsBlocks c.bs blocks) :
    CBC.decrypt c p iv (b ++ blocks.flatten) = p.unpad (xorBytes ((D b).take iv.length) iv ++ (cbcDec D b blocks).flatten) :=
  CBC.decrypt_short h hb hbs

/-- C87: the stream does something else: every block is delivered in full, but only as many bytes of it as the IV has are chained. -/
theorem C87_cbc_decrypt_stream (h : Lawful c E D) (p : Padding) (iv : Bytes) (hiv : iv.length ≤ c.bs) (cb : List Bytes) (last : Bytes)
    (hcb : IsBlocks c.bs cb) (hl : last.length = c.bs) (ops : List (Bytes × Bool)) (hops : written ops = cb.flatten ++ last) :
    ∃ front back, (cbcDecShort D iv.length iv (cb ++ [last])).flatten = front ++ back ∧ back.length = c.bs ∧
      runStream (CBC.decStream c p iv) (CBC.init iv) ops = (p.unpad back).map fun u => (front ++ u, CBC.init iv) := by
  refine ⟨(cbcDecShort D iv.length iv cb).flatten, (cbcDecShort D iv.length (runPure (CBC.shortF D iv.length) iv cb).1 [last]).flatten, ?_, ?_, ?_⟩
  · rw [CBC.cbcDecShort_append, List.flatten_append]
  · have hst : (runPure (CBC.shortF D iv.length) iv cb).1.length = iv.length :=
      runPure_inv _ (fun j => j.length = iv.length) c.bs (fun s b a b' => (CBC.sDecStep_short h hiv s b a b').2) rfl hcb
    have hD := h.lenD last hl
    simp only [cbcDecShort, List.flatten_cons, List.flatten_nil, List.append_nil, List.length_append, length_xorBytes, List.length_take, List.length_drop]
    omega
  · rw [CBC.decRun_short h hiv hcb hl ops hops]
    cases p.unpad ((cbcDecShort D iv.length (runPure (CBC.shortF D iv.length) iv cb).1 [last]).flatten) <;> rfl

/-! ## The claim itself -/

/-- The claim of C87 for CBC decryption: an object made by `new` whose `update_iv` failed does not decrypt anything. -/
def C87_claim : Prop :=
  ∀ (c : BlockCipher) (E D : Bytes → Bytes), Lawful c E D → ∀ (ρ : Type) (gen : ρ → Option (BitVec 32) × ρ) (r : ρ) (o o' : IvObj ρ) (e : Fault),
    IvObj.new c (defaultIv gen c.bs) r [] = .ok o → o.update .cbc c (defaultIv gen c.bs) = (.error e, o') →
    ∀ (p : Padding) (x : Bytes), x ≠ [] → ∀ m, CBC.decrypt c p o'.curIv x ≠ .ok m

/-- A random source that delivers one word and fails from then on. -/
private def oneWord (k : Nat) : Option (BitVec 32) × Nat := (if k = 0 then some 0x01020304#32 else none, k + 1)

/-- C87 is false of CBC decryption: after a failed `update_iv`, `decrypt` delivers a message without its first block and reports success. -/
theorem C87_cbc_decrypt_refuted : ¬ C87_claim := by
  intro h
  exact h (Toy.cipher 4) Toy.E Toy.D (Toy.lawful 4 (by decide)) Nat oneWord 0 ⟨[1, 2, 3, 4], 1⟩ ⟨[], 2⟩ (.err .randError) (by decide) (by decide)
    .empty [1, 2, 3, 4, 5, 6, 7, 8] (by decide) [6, 4, 6, 0] (by decide)

/-- C87, the part that holds: an object with the default source, made by `new`, in any history of `update_iv` and `set_iv`. Either the last IV taken is
in use, or drawing one failed since; in the latter case OFB delivers nothing, CFB delivers nothing, and CBC encrypts nothing that has a block or more.
Missing: CBC decryption (refuted above; what it does is `C87_cbc_decrypt`) and `CBC::encrypt` of less than a block. -/
theorem C87_partial (h : Lawful c E D) (hc : c.blockSize = some c.bs) (m : IvMode) (gen : ρ → Option (BitVec 32) × ρ) (r : ρ) (buf : Bytes) (o : IvObj ρ)
    (hn : IvObj.new c (defaultIv gen c.bs) r buf = .ok o) (ks : List IvCall) :
    let rs := o.calls m c (defaultIv gen c.bs) ks
    let cur := rs.2.curIv
    (∀ iv, ivInUse (some o.curIv) (List.zipWith eventOf ks rs.1) = some iv → cur = iv ∧ iv.length = c.bs) ∧
    (ivInUse (some o.curIv) (List.zipWith eventOf ks rs.1) = none →
      (∀ x, OFB.encrypt c cur x = .error (.err .invalidParameter) ∧ OFB.decrypt c cur x = .error (.err .invalidParameter)) ∧
      (∀ p s x y, 0 < s → CFB.encrypt c p s cur x = .ok y → y = []) ∧
      (∀ p s x y, 0 < s → x ≠ [] → CFB.decrypt c p s cur x ≠ .ok y) ∧
      (∀ p x, c.bs ≤ x.length → CBC.encrypt c p cur x = .error (.err .invalidParameter))) := by
  intro rs cur
  refine ⟨fun iv hu => C87_history m hc (defaultIv gen c.bs) ks o (some o.curIv) (fun iv hiv => by cases hiv; exact ⟨rfl, C87_new hc _ _ _ _ hn⟩) iv hu,
    fun hu => ?_⟩
  have hl : cur.length < c.bs := C87_default_history m hc gen ks o (some o.curIv) (fun h => by cases h) hu
  have hl' : cur.length ≠ c.bs := by omega
  refine ⟨fun x => ⟨OFB.encrypt_bad h hl' x, OFB.encrypt_bad h hl' x⟩, fun p s x y hs hy => ?_, fun p s x y hs hx hy => ?_,
    fun p x hx => CBC.encrypt_bad h hl' hx⟩
  · rw [CFB.encrypt_bad h hl' x] at hy
    split at hy
    · cases hy
    · cases hy; rfl
  · rw [CFB.decrypt_bad h hl' hx] at hy
    cases hy

/-! ## Examples -/

-- an object that loses its IV, refuses a wrong one and takes a good one
example : (IvObj.new (Toy.cipher 4) (defaultIv oneWord 4) 0 [9]).toOption = some ⟨[1, 2, 3, 4], 1⟩ := by decide
example :
    let rs := (IvObj.mk [1, 2, 3, 4] 1).calls .ofb (Toy.cipher 4) (defaultIv oneWord 4) [.update, .set [7], .set [5, 6, 7, 8]]
    rs.2.curIv = [5, 6, 7, 8] ∧ (rs.1.map fun r => r.toOption) = [none, none, some [5, 6, 7, 8]] := by decide
-- losing the IV after the first of two words
example : ((IvObj.mk (List.replicate 8 0) 0).update .cbc (Toy.cipher 8) (defaultIv oneWord 8)).2 = ⟨[1, 2, 3, 4], 2⟩ := by decide
-- the hypotheses of the theorems on short IVs
example : Lawful (Toy.cipher 4) Toy.E Toy.D ∧ ([] : Bytes).length < (Toy.cipher 4).bs ∧ IsBlocks (Toy.cipher 4).bs [[5, 6, 7, 8]] ∧
    written [([1, 2, 3], true), ([4, 5, 6, 7, 8], false)] = [[1, 2, 3, 4]].flatten ++ [5, 6, 7, 8] :=
  ⟨Toy.lawful 4 (by decide), by decide, by simp [IsBlocks, BlockCipher.bs, Toy.cipher], by decide⟩
-- one-shot and stream disagree about the same ciphertext and the same object
example : (CBC.decrypt (Toy.cipher 4) .empty [] [1, 2, 3, 4, 5, 6, 7, 8]).toOption = some [6, 4, 6, 0] ∧
    ((runStream (CBC.decStream (Toy.cipher 4) .empty []) (CBC.init []) [([1, 2, 3, 4, 5, 6, 7, 8], false)]).toOption.map Prod.fst) =
      some [3, 2, 1, 0, 7, 6, 5, 4] := by decide

end Verif.Props
