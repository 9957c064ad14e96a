import Verif.Model.Sized
import Verif.Proof.RSABytes
import Verif.Proof.CTR

/-! Lemmas about arithmetic on `usize`, for C110 -/

namespace Verif.Model.Sized
open Verif.Model.RSA
open Verif.Model.PSS (usub shr8 shl8 andHead)

theorem uadd_ok {a b : Nat} (debug : Bool) (h : a + b < 2 ^ 64) : uadd debug a b = .ok (a + b) := by rw [uadd, if_pos h]

theorem uadd_debug {a b : Nat} (h : ¬ a + b < 2 ^ 64) : uadd true a b = .error .panic := by rw [uadd, if_neg h]; rfl

theorem uadd_release {a b : Nat} (h : ¬ a + b < 2 ^ 64) : uadd false a b = .ok (a + b - 2 ^ 64) := by rw [uadd, if_neg h]; rfl

theorem usub_ok {a b : Nat} (debug : Bool) (h : b ≤ a) : usub debug a b = .ok (a - b) := by rw [usub, if_pos h]

theorem usub_release {a b : Nat} (h : ¬ b ≤ a) : usub false a b = .ok (2 ^ 64 + a - b) := by rw [usub, if_neg h]; rfl

theorem bytesOf_ok {x : Nat} (debug : Bool) (h : x + 7 < 2 ^ 64) : bytesOf debug x = .ok ((x + 7) / 8) := by
  rw [bytesOf, uadd_ok debug h]
  simp only [bind, Except.bind, Nat.shiftRight_eq_div_pow]

theorem bytesOf_debug {x : Nat} (h : ¬ x + 7 < 2 ^ 64) : bytesOf true x = .error .panic := by
  rw [bytesOf, uadd_debug h]; rfl

theorem bytesOf_release {x : Nat} (h : ¬ x + 7 < 2 ^ 64) (hx : x < 2 ^ 64) : bytesOf false x = .ok 0 := by
  rw [bytesOf, uadd_release h]
  simp only [bind, Except.bind, Nat.shiftRight_eq_div_pow]
  congr 1; omega

theorem res_ok_bind {α β : Type} (a : α) (f : α → Res β) : ((Except.ok a : Res α) >>= f) = f a := rfl

theorem room_ok {h s : Nat} (debug : Bool) (hr : h + s + 2 < 2 ^ 64) : room debug h s = .ok (h + s + 2) := by
  rw [room, uadd_ok debug (by omega)]
  exact uadd_ok debug hr

theorem room_debug {h s : Nat} (hr : ¬ h + s + 2 < 2 ^ 64) : room true h s = .error .panic := by
  by_cases h1 : h + s < 2 ^ 64
  · rw [room, uadd_ok _ h1]; exact uadd_debug hr
  · rw [room, uadd_debug h1]; rfl

theorem room_release {h s : Nat} (hr : ¬ h + s + 2 < 2 ^ 64) (hh : h < 2 ^ 62) (hs : s < 2 ^ 64) : room false h s = .ok (h + s + 2 - 2 ^ 64) := by
  by_cases h1 : h + s < 2 ^ 64
  · rw [room, uadd_ok _ h1]
    show uadd false (h + s) 2 = _
    rw [uadd_release (a := h + s) (b := 2) hr]
  · rw [room, uadd_release h1, res_ok_bind, uadd_ok _ (by omega), show h + s - 2 ^ 64 + 2 = h + s + 2 - 2 ^ 64 by omega]

theorem withCapacity_ok {n : Nat} (h : n < 2 ^ 63) : withCapacity n = .ok () := by rw [withCapacity, if_pos h]

theorem withCapacity_panic {n : Nat} (h : ¬ n < 2 ^ 63) : withCapacity n = .error .panic := by rw [withCapacity, if_neg h]

/-! ## The counter -/

theorem counterNext_ok (debug : Bool) (c : DefaultCounter) (h : c.bitsLen + 7 < 2 ^ 64) : counterNext debug c = .ok c.next := by
  unfold counterNext DefaultCounter.next
  cases hc : c.curVal with
  | some v => rfl
  | none =>
    simp only [bytesOf_ok debug h, bind, Except.bind, DefaultCounter.first]
    rw [withCapacity_ok (by omega)]
    simp only []
    rw [usub_ok debug (Nat.sub_le _ _)]

theorem counterNext_bits {c : DefaultCounter} : (c.next).2.bitsLen = c.bitsLen := rfl

theorem counterValue_ok (debug : Bool) (i : Nat) : ∀ c : DefaultCounter, c.bitsLen + 7 < 2 ^ 64 →
    counterValue debug c i = .ok (DefaultCounter.ops.value c i) := by
  induction i with
  | zero => intro c h; rw [counterValue, counterNext_ok debug c h]; rfl
  | succ i ih =>
    intro c h
    rw [counterValue, counterNext_ok debug c h]
    simp only [bind, Except.bind]
    rw [ih c.next.2 h]
    have : ∀ (k : Nat) (c : DefaultCounter), DefaultCounter.ops.after (c.next).2 k = DefaultCounter.ops.after c (k + 1) := by
      intro k
      induction k with
      | zero => intro c; rfl
      | succ k ih => intro c; rw [CounterOps.after, ih c]; rfl
    rw [CounterOps.value, this, CounterOps.value]

theorem counterValue_empty (bits : Nat) (h : ¬ bits + 7 < 2 ^ 64) (hb : bits < 2 ^ 64) (i : Nat) :
    counterValue false ⟨bits, [], none⟩ i = .ok (some []) := by
  have h0 : counterNext false ⟨bits, [], none⟩ = .ok (some [], ⟨bits, [], some []⟩) := by
    simp only [counterNext, bytesOf_release h hb, bind, Except.bind]
    rw [withCapacity_ok (by omega)]
    simp [usub]
  have h1 : ∀ i, counterValue false ⟨bits, [], some []⟩ i = .ok (some []) := by
    intro i
    induction i with
    | zero => rfl
    | succ i ih =>
      rw [counterValue]
      exact ih
  cases i with
  | zero => rw [counterValue, h0]; rfl
  | succ i => rw [counterValue, h0]; exact h1 i

/-! ## RSA -/

variable {σ S : Type} {d : Digest S}

theorem computeSaltLen_ok (debug : Bool) (want : Option Nat) {h bits : Nat} (hb : bits + 7 < 2 ^ 64) (hh : 2 + h < 2 ^ 64) :
    computeSaltLen debug want h bits = .ok (PSS.computeSaltLen want h bits) := by
  match want with
  | none => rfl
  | some 0 =>
    simp only [computeSaltLen, PSS.computeSaltLen, gt_iff_lt, Nat.lt_irrefl, if_false, bytesOf_ok debug hb, uadd_ok debug hh, bind, Except.bind,
      Nat.shiftRight_eq_div_pow]
  | some (x + 1) => rfl

theorem mgf1Loop_length (seed : Bytes) : ∀ (fuel : Nat) (hf : S) (count : BitVec 32) (out : Bytes) (hf' : S) (r : Bytes),
    mgf1Loop d seed fuel hf count out = .ok (hf', r) → r.length = out.length := by
  intro fuel
  induction fuel with
  | zero =>
    intro hf count out hf' r h
    cases out with
    | nil => simp only [mgf1Loop, Except.ok.injEq, Prod.mk.injEq] at h; rw [← h.2]
    | cons x xs => cases h
  | succ fuel ih =>
    intro hf count out hf' r h
    cases out with
    | nil => simp only [mgf1Loop, Except.ok.injEq, Prod.mk.injEq] at h; rw [← h.2]
    | cons x xs =>
      rw [mgf1Loop] at h
      cases h1 : hashParts d hf [seed, be32 count] with
      | error e => rw [h1] at h; cases h
      | ok p =>
        obtain ⟨hf1, dig⟩ := p
        rw [h1] at h
        simp only [bind, Except.bind] at h
        cases h2 : mgf1Loop d seed fuel hf1 (count + 1#32) ((x :: xs).drop dig.length) with
        | error e => rw [h2] at h; cases h
        | ok q =>
          obtain ⟨hf2, rest⟩ := q
          rw [h2] at h
          simp only [Except.ok.injEq, Prod.mk.injEq] at h
          rw [← h.2, List.length_append, ih _ _ _ _ _ h2, List.length_drop]
          simp only [xorBytes, List.length_zipWith, List.length_cons]
          omega

theorem mgf1Xor_length {hf hf' : S} {out seed r : Bytes} (h : mgf1Xor d hf out seed = .ok (hf', r)) : r.length = out.length :=
  mgf1Loop_length seed _ _ _ _ _ _ h

theorem andHead_length {m : Byte} {b r : Bytes} (h : andHead m b = .ok r) : r.length = b.length := by
  cases b with
  | nil => cases h
  | cons x xs => simp only [andHead, Except.ok.injEq] at h; rw [← h]; rfl

theorem bind_congr' {α β : Type} {x : Res α} {f g : α → Res β} (h : ∀ a, x = .ok a → f a = g a) : (x >>= f) = (x >>= g) := by
  cases x with
  | error e => rfl
  | ok a => exact h a rfl

/-- With enough room in the word the code of `emsa_pss_verify` is the model without words. -/
theorem pssVerifyEM_ok (debug : Bool) (hf : S) (slen : Nat) (em mHash : Bytes) (emBits : Nat) (hd : d.bitsLen hf + 7 < 2 ^ 64)
    (hr : (d.bitsLen hf + 7) / 8 + slen + 2 < 2 ^ 64) :
    pssVerifyEM debug d hf slen em mHash emBits = PSS.verifyEM debug d hf slen em mHash emBits := by
  unfold pssVerifyEM PSS.verifyEM
  rw [bytesOf_ok debug hd]
  have hh : hLen d hf = (d.bitsLen hf + 7) / 8 := by rw [hLen, Nat.shiftRight_eq_div_pow]
  rw [hh]
  generalize (d.bitsLen hf + 7) / 8 = h at hr
  simp only [Nat.shiftRight_eq_div_pow]
  generalize (emBits + 7) / 2 ^ 3 = emLen
  show (hashParts d hf [mHash] >>= _) = _
  refine bind_congr' fun ⟨hf1, mh⟩ _ => ?_
  simp only []
  by_cases hm : h ≠ mh.length
  · rw [if_pos hm, if_pos hm]
  rw [if_neg hm, if_neg hm]
  by_cases he : emLen ≠ em.length
  · rw [if_pos he, if_pos (Or.inl he)]
  rw [if_neg he, room_ok debug hr]
  show (if emLen < h + slen + 2 then _ else _) = _
  by_cases hl : emLen < h + slen + 2
  · rw [if_pos hl, if_pos (Or.inr hl)]
  rw [if_neg hl, if_neg (by omega), usub_ok debug (show 1 ≤ emLen by omega)]
  show (index em (emLen - 1) >>= _) = _
  refine bind_congr' fun last _ => ?_
  by_cases hb : last ≠ 0xbc#8
  · rw [if_pos hb, if_pos hb]
  rw [if_neg hb, if_neg hb, usub_ok debug (show h ≤ emLen by omega)]
  show (usub debug (emLen - h) 1 >>= _) = _
  rw [usub_ok debug (show 1 ≤ emLen - h by omega)]
  show (index em 0 >>= _) = _
  refine bind_congr' fun e0 _ => bind_congr' fun z _ => bind_congr' fun sh _ => bind_congr' fun hi _ => ?_
  by_cases h8 : e0 &&& hi ≠ 0#8
  · rw [if_pos h8, if_pos h8]
  rw [if_neg h8, if_neg h8]
  refine bind_congr' fun db hdb => bind_congr' fun hv _ => bind_congr' fun ⟨hf2, db2⟩ h2 => bind_congr' fun t _ => bind_congr' fun mask _ =>
    bind_congr' fun db3 h3 => ?_
  have hlen : db3.length = emLen - h - 1 := by
    rw [andHead_length h3, mgf1Xor_length h2]
    simp only [slice] at hdb
    split at hdb
    · rename_i hc
      simp only [Except.ok.injEq] at hdb
      rw [← hdb]; simp; omega
    · cases hdb
  show (usub debug (emLen - h) slen >>= _) = _
  rw [usub_ok debug (show slen ≤ emLen - h by omega)]
  show (usub debug (emLen - h - slen) 2 >>= _) = _
  rw [usub_ok debug (show 2 ≤ emLen - h - slen by omega)]
  show (if _ then _ else _) = _
  split
  · rfl
  refine bind_congr' fun sep _ => ?_
  split
  · rfl
  rw [usub_ok debug (show slen ≤ db3.length by omega)]
  rfl

/-- Where the sum of the lengths wraps around, a release build never gets past the separator. -/
theorem pssVerifyEM_wrap (hf : S) (slen : Nat) (em mHash : Bytes) (emBits : Nat) (hd : d.bitsLen hf + 7 < 2 ^ 64) (hs : slen < 2 ^ 64)
    (hr : ¬ (d.bitsLen hf + 7) / 8 + slen + 2 < 2 ^ 64) (hem : emBits + 7 < 2 ^ 64) (r : S) :
    pssVerifyEM false d hf slen em mHash emBits ≠ .ok r := by
  unfold pssVerifyEM
  rw [bytesOf_ok false hd]
  have hh62 : (d.bitsLen hf + 7) / 8 < 2 ^ 62 := by omega
  generalize (d.bitsLen hf + 7) / 8 = h at hr hh62
  simp only [Nat.shiftRight_eq_div_pow]
  have hel : (emBits + 7) / 2 ^ 3 < 2 ^ 62 := by omega
  generalize (emBits + 7) / 2 ^ 3 = emLen at hel
  have nb : ∀ {α : Type} {x : Res α} {f : α → Res S}, (∀ a, x = .ok a → f a ≠ .ok r) → (x >>= f) ≠ .ok r := by
    intro α x f hx
    cases x with
    | error e => intro hc; cases hc
    | ok a => exact hx a rfl
  have ni : ∀ {p : Prop} [Decidable p] {e : Fault} {y : Res S}, (¬ p → y ≠ .ok r) → (if p then .error e else y) ≠ .ok r := by
    intro p _ e y hy
    by_cases hp : p
    · rw [if_pos hp]; intro hc; cases hc
    · rw [if_neg hp]; exact hy hp
  refine nb fun _ h1 => ?_
  injection h1 with h1; subst h1
  refine nb fun ⟨hf1, mh⟩ _ => ni fun _ => ni fun he => nb fun rm hrm => ni fun hlr => nb fun i _ => nb fun last _ => ni fun _ => nb fun a ha => nb fun dbEnd hdbE =>
    nb fun hEnd _ => nb fun e0 _ => nb fun z _ => nb fun sh _ => nb fun hi _ => ni fun _ => nb fun db hdb => nb fun hv _ => nb fun ⟨hf2, db2⟩ h2 =>
    nb fun t _ => nb fun mask _ => nb fun db3 h3 => nb fun a' ha' => nb fun b hb => nb fun k hk => ni fun _ => nb fun sep hsep => ?_
  exfalso
  have hdl : db3.length = dbEnd ∧ dbEnd ≤ em.length := by
    rw [andHead_length h3, mgf1Xor_length h2]
    simp only [slice] at hdb
    split at hdb
    · rename_i hc
      simp only [Except.ok.injEq] at hdb
      rw [← hdb]
      simp only [List.drop_zero, List.length_take]
      omega
    · cases hdb
  have hkl : k < db3.length := by
    simp only [index] at hsep
    split at hsep
    · assumption
    · cases hsep
  have us : ∀ {x y z : Nat}, usub false x y = .ok z → (y ≤ x ∧ z = x - y) ∨ (x < y ∧ z = 2 ^ 64 + x - y) := by
    intro x y z hu
    by_cases hxy : y ≤ x
    · rw [usub_ok _ hxy] at hu; injection hu with hu; exact .inl ⟨hxy, hu.symm⟩
    · rw [usub_release hxy] at hu; injection hu with hu; exact .inr ⟨by omega, hu.symm⟩
  have hea : emLen = em.length := by simpa using he
  rw [room_release hr hh62 hs] at hrm
  injection hrm with hrm
  have e1 := us ha
  have e2 := us hdbE
  have e3 := us ha'
  have e4 := us hb
  have e5 := us hk
  omega

end Verif.Model.Sized
