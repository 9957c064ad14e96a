import Mathlib.Logic.Function.Iterate
import Verif.Model.IvObj
import Verif.Spec.Iv
import Verif.Proof.CBC
import Verif.Proof.CFB
import Verif.Proof.OFB

/-! Helper lemmas for C87: mode objects and streams whose IV does not have the length of a block -/

namespace Verif.Model
open Spec

variable {c : BlockCipher} {E D : Bytes → Bytes}

theorem IvObj.update_eq {ρ : Type} (m : IvMode) {n : Nat} (hc : c.blockSize = some n) (v : IvSource ρ) (o : IvObj ρ) :
    o.update m c v = match v.draw o.src o.curIv with
      | (some k, iv, r) => (.error (.err k), ⟨iv, r⟩)
      | (none, iv, r) => (if iv.length = n then .ok iv else .error (.err .innerErr), ⟨iv, r⟩) := by
  unfold IvObj.update
  rcases v.draw o.src o.curIv with ⟨k, iv, r⟩
  cases k with
  | some k => rfl
  | none =>
    cases m <;>
      simp only [CBC.checkIv, CFB.updateIv, OFB.updateIv, BlockCipher.bs, hc, Option.getD, Option.isSome, true_and, bind, Except.bind, ne_eq, ite_not] <;>
      by_cases h : iv.length = n <;> simp [h] <;> exact fun h' => h h'.symm

/-- The kind of error with which `set_iv` refuses an IV. -/
def IvMode.refusal : IvMode → ErrKind
  | .cbc => .invalidParameter
  | .cfb => .invalidParameter
  | .ofb => .innerErr

theorem IvObj.set_eq {ρ : Type} (m : IvMode) {n : Nat} (hc : c.blockSize = some n) (o : IvObj ρ) (iv : Bytes) :
    o.set m c iv = if iv.length = n then (.ok (), { o with curIv := iv }) else (.error (.err m.refusal), o) := by
  unfold IvObj.set
  cases m <;>
    simp only [CBC.setIv, CFB.setIv, OFB.setIv, BlockCipher.bs, hc, Option.getD, Option.isSome, true_and, ne_eq, ite_not] <;>
    by_cases h : iv.length = n <;> simp [h, IvMode.refusal]

theorem length_flatMap_be32 (w : Nat → BitVec 32) (k : Nat) : ((List.range k).flatMap fun i => be32 (w i)).length = 4 * k := by
  induction k with
  | zero => rfl
  | succ k ih => rw [List.range_succ, List.flatMap_append, List.length_append, ih]; simp [be32]; omega

theorem defaultLoop_ok {ρ : Type} (gen : ρ → Option (BitVec 32) × ρ) (bs : Nat) (w : Nat → BitVec 32) (n : Nat) (r : ρ) (iv : Bytes)
    (h : ∀ i < n, (gen ((fun r => (gen r).2)^[i] r)).1 = some (w i)) :
    defaultLoop gen bs n r iv = (none, (iv ++ (List.range n).flatMap fun i => be32 (w i)).take bs, (fun r => (gen r).2)^[n] r) := by
  induction n generalizing r iv w with
  | zero => simp [defaultLoop]
  | succ n ih =>
    have h0 := h 0 (by omega)
    simp only [Function.iterate_zero, id] at h0
    unfold defaultLoop
    rcases hg : gen r with ⟨x, r'⟩
    rw [hg] at h0
    dsimp only at h0
    subst h0
    have hr : (gen r).2 = r' := by rw [hg]
    dsimp only
    rw [ih (fun i => w (i + 1)) r' (iv ++ be32 (w 0)) (fun i hi => by
      have := h (i + 1) (by omega)
      rw [Function.iterate_succ_apply, hr] at this
      exact this)]
    rw [Function.iterate_succ_apply, hr, List.range_succ_eq_map, List.flatMap_cons, List.flatMap_map, List.append_assoc]

theorem defaultLoop_err {ρ : Type} (gen : ρ → Option (BitVec 32) × ρ) (bs : Nat) (w : Nat → BitVec 32) (k n : Nat) (r : ρ) (iv : Bytes) (hk : k < n)
    (h : ∀ i < k, (gen ((fun r => (gen r).2)^[i] r)).1 = some (w i)) (he : (gen ((fun r => (gen r).2)^[k] r)).1 = none) :
    defaultLoop gen bs n r iv = (some .randError, iv ++ (List.range k).flatMap fun i => be32 (w i), (fun r => (gen r).2)^[k + 1] r) := by
  induction k generalizing n r iv w with
  | zero =>
    obtain ⟨n, rfl⟩ : ∃ m, n = m + 1 := ⟨n - 1, by omega⟩
    simp only [Function.iterate_zero, id] at he
    unfold defaultLoop
    rcases hg : gen r with ⟨x, r'⟩
    rw [hg] at he
    dsimp only at he
    subst he
    simp [hg]
  | succ k ih =>
    obtain ⟨n, rfl⟩ : ∃ m, n = m + 1 := ⟨n - 1, by omega⟩
    have h0 := h 0 (by omega)
    simp only [Function.iterate_zero, id] at h0
    unfold defaultLoop
    rcases hg : gen r with ⟨x, r'⟩
    rw [hg] at h0
    dsimp only at h0
    subst h0
    have hr : (gen r).2 = r' := by rw [hg]
    dsimp only
    rw [Function.iterate_succ_apply, hr] at he
    rw [ih (fun i => w (i + 1)) n r' (iv ++ be32 (w 0)) (by omega) (fun i hi => by
      have := h (i + 1) (by omega)
      rw [Function.iterate_succ_apply, hr] at this
      exact this) he]
    rw [Function.iterate_succ_apply _ (k + 1), hr, List.range_succ_eq_map, List.flatMap_cons, List.flatMap_map, List.append_assoc]

/-- A draw of the default source either succeeds with a whole block or fails with less than one. -/
theorem defaultLoop_cases {ρ : Type} (gen : ρ → Option (BitVec 32) × ρ) (bs n : Nat) (r : ρ) (iv : Bytes) (hn : bs ≤ iv.length + 4 * n)
    (hn' : iv.length + 4 * n < bs + 4) :
    ((defaultLoop gen bs n r iv).1 = none ∧ (defaultLoop gen bs n r iv).2.1.length = bs) ∨
    ((defaultLoop gen bs n r iv).1 = some .randError ∧ (defaultLoop gen bs n r iv).2.1.length < bs) := by
  induction n generalizing r iv with
  | zero => left; unfold defaultLoop; exact ⟨rfl, by rw [List.length_take]; omega⟩
  | succ n ih =>
    unfold defaultLoop
    rcases gen r with ⟨x, r'⟩
    cases x with
    | none => right; exact ⟨rfl, by dsimp only; omega⟩
    | some w => exact ih r' (iv ++ be32 w) (by simp [be32]; omega) (by simp [be32]; omega)

/-! ## Refusals -/

theorem whileLen_fail {σ : Type} {cont : Nat → Bool} {n : Nat} {step : σ → Bytes → Res (σ × Bytes)} {s : σ} {e : Fault} {dst data : Bytes} (fuel : Nat)
    (hc : cont data.length = true) (hs : step s (data.take n) = .error e) : whileLen cont n step (fuel + 1) s dst data = .error e := by
  simp only [whileLen, hc, hs, if_true]

theorem whileLen_stop {σ : Type} {cont : Nat → Bool} {n : Nat} {step : σ → Bytes → Res (σ × Bytes)} {s : σ} {dst data : Bytes} (fuel : Nat)
    (hc : cont data.length = false) : whileLen cont n step (fuel + 1) s dst data = .ok (s, dst, data) := by
  simp [whileLen, hc]

theorem OFB.encrypt_bad (h : Lawful c E D) {iv : Bytes} (hiv : iv.length ≠ c.bs) (m : Bytes) :
    OFB.encrypt c iv m = .error (.err .invalidParameter) := by
  have hs : ∀ b, OFB.step c iv b = .error (.err .invalidParameter) := fun b => by simp [OFB.step, h.encErr iv hiv, bind, Except.bind]
  unfold OFB.encrypt OFB.encryptInner
  dsimp only
  by_cases hm : c.bs ≤ (m.take (m.length - m.length % c.bs)).length
  · rw [whileLen_fail _ (by simpa [contGe] using hm) (hs _)]; rfl
  · rw [whileLen_stop _ (by simpa [contGe] using hm)]
    simp [bind, Except.bind, h.encErr iv hiv]

theorem CFB.encryptInner_bad (h : Lawful c E D) {iv : Bytes} (hiv : iv.length ≠ c.bs) (s : Nat) (dst m : Bytes) :
    CFB.encryptInner c s iv dst m = if s ≤ m.length then .error (.err .invalidParameter) else .ok (iv, dst) := by
  have hs : ∀ b, CFB.encStep c s iv b = .error (.err .invalidParameter) := fun b => by simp [CFB.encStep, h.encErr iv hiv, bind, Except.bind]
  unfold CFB.encryptInner
  by_cases hm : s ≤ m.length
  · rw [whileLen_fail _ (by simpa [contGe] using hm) (hs _), if_pos hm]; rfl
  · rw [whileLen_stop _ (by simpa [contGe] using hm), if_neg hm]; rfl

theorem CFB.decryptInner_bad (h : Lawful c E D) {iv : Bytes} (hiv : iv.length ≠ c.bs) (s : Nat) (dst m : Bytes) :
    CFB.decryptInner c s iv dst m = if m = [] then .ok (iv, dst) else .error (.err .invalidParameter) := by
  have hs : ∀ b, CFB.decStep c s iv b = .error (.err .invalidParameter) := fun b => by simp [CFB.decStep, h.encErr iv hiv, bind, Except.bind]
  unfold CFB.decryptInner
  by_cases hm : m = []
  · subst hm; rw [whileLen_stop _ (by simp [contNe]), if_pos rfl]; rfl
  · rw [whileLen_fail _ (by simp [contNe]; exact List.length_pos_iff.2 hm) (hs _), if_neg hm]; rfl

theorem CFB.encrypt_bad (h : Lawful c E D) {p : Padding} {s : Nat} {iv : Bytes} (hiv : iv.length ≠ c.bs) (m : Bytes) :
    CFB.encrypt c p s iv m = if s ≤ m.length ∨ s ≤ (p.padding m).length then .error (.err .invalidParameter) else .ok [] := by
  unfold CFB.encrypt
  rw [CFB.encryptInner_bad h hiv]
  by_cases hm : s ≤ m.length
  · rw [if_pos hm, if_pos (Or.inl hm)]; rfl
  · rw [if_neg hm]
    simp only [bind, Except.bind, Nat.mod_eq_of_lt (Nat.lt_of_not_le hm), Nat.sub_self, List.drop_zero]
    rw [CFB.encryptInner_bad h hiv]
    by_cases hp : s ≤ (p.padding m).length
    · rw [if_pos hp, if_pos (Or.inr hp)]
    · rw [if_neg hp, if_neg (by omega)]

theorem CFB.decrypt_bad (h : Lawful c E D) {p : Padding} {s : Nat} {iv : Bytes} (hiv : iv.length ≠ c.bs) {ct : Bytes} (hct : ct ≠ []) :
    CFB.decrypt c p s iv ct = .error (.err .invalidParameter) := by
  unfold CFB.decrypt
  by_cases hm : ct.length % s ≠ 0
  · rw [if_pos hm]
  · rw [if_neg hm, CFB.decryptInner_bad h hiv, if_neg hct]; rfl

theorem CBC.encrypt_bad (h : Lawful c E D) {p : Padding} {iv : Bytes} (hiv : iv.length ≠ c.bs) {m : Bytes} (hm : c.bs ≤ m.length) :
    CBC.encrypt c p iv m = .error (.err .invalidParameter) := by
  unfold CBC.encrypt
  rw [whileLen_fail (e := .err .invalidParameter) _ (by simpa [contGe] using hm)]
  · rfl
  · unfold CBC.encStep
    rw [h.encErr]
    · rfl
    · unfold CBC.xorIv
      rw [List.length_append, length_xorBytes, List.length_drop, List.length_take]
      omega

theorem CBC.encrypt_short {p : Padding} (iv iv' : Bytes) {m : Bytes} (hm : m.length < c.bs) : CBC.encrypt c p iv m = CBC.encrypt c p iv' m := by
  have hc : contGe c.bs m.length = false := by simpa [contGe] using hm
  unfold CBC.encrypt
  rw [whileLen_stop _ hc, whileLen_stop _ hc]
  rfl

/-- A stream that only collects input until it has `n` bytes, and then fails. -/
theorem feed_hold {σ : Type} {str : Stream σ} {n : Nat} {t : σ} {e : Fault}
    (h1 : ∀ data d, data.length + d.length < n → str.write ⟨data, [], t⟩ d = .ok ⟨data ++ d, [], t⟩)
    (h2 : ∀ data d, data.length < n → n ≤ data.length + d.length → str.write ⟨data, [], t⟩ d = .error e)
    (ops : List (Bytes × Bool)) (data : Bytes) (hd : data.length < n) :
    feed str ⟨data, [], t⟩ ops = if (data ++ written ops).length < n then .ok ([], ⟨data ++ written ops, [], t⟩) else .error e := by
  induction ops generalizing data with
  | nil => simp [feed, written, hd]
  | cons op ops ih =>
    obtain ⟨d, b⟩ := op
    have hw : written ((d, b) :: ops) = d ++ written ops := by simp [written]
    rw [hw, ← List.append_assoc]
    unfold feed
    by_cases hl : data.length + d.length < n
    · rw [h1 _ _ hl]
      have hih := ih (data ++ d) (by simpa using hl)
      have hdraw : (if b = true then drawOff ⟨data ++ d, [], t⟩ else ([], ⟨data ++ d, [], t⟩)) = (([] : Bytes), (⟨data ++ d, [], t⟩ : StreamSt σ)) := by
        cases b <;> rfl
      simp only [bind, Except.bind, hdraw, hih]
      by_cases hf : (data ++ d ++ written ops).length < n
      · rw [if_pos hf]; rfl
      · rw [if_neg hf]
    · rw [h2 _ _ hd (by omega)]
      rw [if_neg (by simp only [List.length_append]; omega)]
      rfl

theorem runStream_of {σ : Type} {str : Stream σ} {s s' : StreamSt σ} {ops : List (Bytes × Bool)} {o : Bytes} (h : feed str s ops = .ok (o, s')) :
    runStream str s ops = (str.finish s').map fun x => (o ++ x.1, x.2) := by
  simp only [runStream, h, bind, Except.bind]
  cases str.finish s' <;> rfl

theorem runStream_err {σ : Type} {str : Stream σ} {s : StreamSt σ} {ops : List (Bytes × Bool)} {e : Fault} (h : feed str s ops = .error e) :
    runStream str s ops = .error e := by
  simp only [runStream, h, bind, Except.bind]

theorem OFB.stream_bad (h : Lawful c E D) {iv : Bytes} (hiv : iv.length ≠ c.bs) (ops : List (Bytes × Bool)) :
    runStream (OFB.stream c iv) (OFB.init iv) ops = if written ops = [] then .ok ([], OFB.init iv) else .error (.err .invalidParameter) := by
  have hs : ∀ b, OFB.step c iv b = .error (.err .invalidParameter) := fun b => by simp [OFB.step, h.encErr iv hiv, bind, Except.bind]
  have hf := feed_hold (str := OFB.stream c iv) (n := c.bs) (t := iv) (e := .err .invalidParameter)
    (fun data d hl => by
      change OFB.write c _ d = _
      unfold OFB.write OFB.encryptInner
      by_cases hd : d = []
      · subst hd; simp
      · rw [if_neg (by simpa using hd)]
        dsimp only
        rw [whileLen_stop _ (by simp [contGe]; omega)]
        have hmod : (data ++ d).length % c.bs = (data ++ d).length := Nat.mod_eq_of_lt (by simpa using hl)
        simp only [bind, Except.bind, hmod, Nat.sub_self, List.drop_zero])
    (fun data d hl hl' => by
      change OFB.write c _ d = _
      unfold OFB.write OFB.encryptInner
      have hd : d ≠ [] := by rintro rfl; simp at hl'; omega
      rw [if_neg (by simpa using hd)]
      dsimp only
      rw [whileLen_fail _ (by simp [contGe]; omega) (hs _)]
      rfl) ops [] h.pos
  rw [List.nil_append] at hf
  change feed (OFB.stream c iv) (OFB.init iv) ops = _ at hf
  by_cases hl : (written ops).length < c.bs
  · rw [if_pos hl] at hf
    have hfin : (OFB.stream c iv).finish ⟨written ops, [], iv⟩ =
        if written ops = [] then .ok ([], OFB.init iv) else .error (.err .invalidParameter) := by
      change OFB.finish c iv ⟨written ops, [], iv⟩ = _
      unfold OFB.finish
      by_cases h0 : written ops = []
      · rw [h0]; rfl
      · rw [if_neg (by simpa using h0), if_neg h0]
        simp [bind, Except.bind, h.encErr iv hiv]
    rw [runStream_of hf, hfin]
    split <;> rfl
  · rw [if_neg hl] at hf
    rw [runStream_err hf, if_neg (by intro h0; rw [h0] at hl; exact hl h.pos)]

theorem CBC.encStream_bad (h : Lawful c E D) {p : Padding} {iv : Bytes} (hiv : iv.length < c.bs) (ops : List (Bytes × Bool)) :
    runStream (CBC.encStream c p iv) (CBC.init iv) ops =
      if (written ops).length < c.bs ∧ p.padding (written ops) = [] then .ok ([], CBC.init iv) else .error (.err .invalidParameter) := by
  have hx : ∀ b, c.encrypt (xorBytes b iv) = .error (.err .invalidParameter) := fun b => h.encErr _ (by rw [length_xorBytes]; omega)
  have hs : ∀ b, CBC.sEncStep c iv b = .error (.err .invalidParameter) := fun b => by simp [CBC.sEncStep, hx, bind, Except.bind]
  have hs' : ∀ b, CBC.finStep c iv iv b = .error (.err .invalidParameter) := fun b => by simp [CBC.finStep, hx, bind, Except.bind]
  have hf := feed_hold (str := CBC.encStream c p iv) (n := c.bs) (t := iv) (e := .err .invalidParameter)
    (fun data d hl => by
      change CBC.encWrite c _ d = _
      unfold CBC.encWrite
      by_cases hd : d = []
      · subst hd; simp
      · have hmin : min (c.bs - data.length) d.length = d.length := by omega
        simp only [hmin, List.take_length, List.drop_length]
        rw [if_neg (by simpa using hd), if_neg (by omega), if_neg (by simp; omega)]
        simp only [bind, Except.bind]
        rw [whileGe_nil h.pos]
        simp)
    (fun data d hl hl' => by
      change CBC.encWrite c _ d = _
      unfold CBC.encWrite
      have hd : d ≠ [] := by rintro rfl; simp at hl'; omega
      have hmin : min (c.bs - data.length) d.length = c.bs - data.length := by omega
      simp only [hmin]
      rw [if_neg (by simpa using hd), if_neg (by omega), if_pos (by simp; omega)]
      simp only [bind, Except.bind, hs]) ops [] h.pos
  rw [List.nil_append] at hf
  change feed (CBC.encStream c p iv) (CBC.init iv) ops = _ at hf
  by_cases hl : (written ops).length < c.bs
  · rw [if_pos hl] at hf
    have hfin : (CBC.encStream c p iv).finish ⟨written ops, [], iv⟩ =
        if p.padding (written ops) = [] then .ok ([], CBC.init iv) else .error (.err .invalidParameter) := by
      change CBC.encFinish c p iv ⟨written ops, [], iv⟩ = _
      unfold CBC.encFinish
      dsimp only
      by_cases h0 : p.padding (written ops) = []
      · rw [h0, whileLen_stop _ (by simp [contNe]), if_pos rfl]
        rfl
      · rw [whileLen_fail _ (by simp [contNe]; exact List.length_pos_iff.2 h0) (hs' _), if_neg h0]
        rfl
    rw [runStream_of hf, hfin]
    by_cases h0 : p.padding (written ops) = []
    · rw [if_pos h0, if_pos ⟨hl, h0⟩]; rfl
    · rw [if_neg h0, if_neg (fun h => h0 h.2)]; rfl
  · rw [if_neg hl] at hf
    rw [runStream_err hf, if_neg (fun h => hl h.1)]

theorem CFB.encStream_bad (h : Lawful c E D) {p : Padding} {s : Nat} (hs0 : 0 < s) {iv : Bytes} (hiv : iv.length ≠ c.bs) (ops : List (Bytes × Bool)) :
    runStream (CFB.encStream c p s iv) (CFB.init iv) ops =
      if s ≤ (written ops).length ∨ s ≤ (p.padding (written ops)).length then .error (.err .invalidParameter) else .ok ([], CFB.init iv) := by
  have hf := feed_hold (str := CFB.encStream c p s iv) (n := s) (t := iv) (e := .err .invalidParameter)
    (fun data d hl => by
      change CFB.encWrite c s _ d = _
      unfold CFB.encWrite
      by_cases hd : d = []
      · subst hd; simp
      · have hmin : min (s - data.length) d.length = d.length := by omega
        simp only [hmin, List.take_length, List.drop_length]
        rw [if_neg (by simpa using hd), if_neg (by omega), if_neg (by simp; omega)]
        simp only [bind, Except.bind]
        rw [CFB.encryptInner_bad h hiv, if_neg (by simp; omega)]
        simp)
    (fun data d hl hl' => by
      change CFB.encWrite c s _ d = _
      unfold CFB.encWrite
      have hd : d ≠ [] := by rintro rfl; simp at hl'; omega
      have hmin : min (s - data.length) d.length = s - data.length := by omega
      simp only [hmin]
      rw [if_neg (by simpa using hd), if_neg (by omega), if_pos (by simp; omega), CFB.encryptInner_bad h hiv, if_pos (by simp; omega)]
      rfl) ops [] hs0
  rw [List.nil_append] at hf
  change feed (CFB.encStream c p s iv) (CFB.init iv) ops = _ at hf
  by_cases hl : (written ops).length < s
  · rw [if_pos hl] at hf
    have hfin : (CFB.encStream c p s iv).finish ⟨written ops, [], iv⟩ =
        if s ≤ (p.padding (written ops)).length then .error (.err .invalidParameter) else .ok ([], CFB.init iv) := by
      change CFB.encFinish c p s iv ⟨written ops, [], iv⟩ = _
      unfold CFB.encFinish
      dsimp only
      rw [CFB.encryptInner_bad h hiv]
      split <;> rfl
    rw [runStream_of hf, hfin]
    by_cases h0 : s ≤ (p.padding (written ops)).length
    · rw [if_pos h0, if_pos (Or.inr h0)]; rfl
    · rw [if_neg h0, if_neg (by omega)]; rfl
  · rw [if_neg hl] at hf
    rw [runStream_err hf, if_pos (by omega)]

theorem CFB.decStream_bad (h : Lawful c E D) {p : Padding} {s : Nat} (hs0 : 0 < s) {iv : Bytes} (hiv : iv.length ≠ c.bs) (ops : List (Bytes × Bool))
    (hne : written ops ≠ []) : runStream (CFB.decStream c p s iv) (CFB.init iv) ops = .error (.err .invalidParameter) := by
  have hf := feed_hold (str := CFB.decStream c p s iv) (n := s) (t := iv) (e := .err .invalidParameter)
    (fun data d hl => by
      change CFB.decWrite c s _ d = _
      unfold CFB.decWrite
      by_cases hd : d = []
      · subst hd; simp
      · rw [if_neg (by simpa using hd)]
        have hmod : (data ++ d).length % s = (data ++ d).length := Nat.mod_eq_of_lt (by simpa using hl)
        simp only [bind, Except.bind, hmod, Nat.sub_self, List.take_zero, List.drop_zero]
        rw [CFB.decryptInner_bad h hiv, if_pos rfl])
    (fun data d hl hl' => by
      change CFB.decWrite c s _ d = _
      unfold CFB.decWrite
      have hd : d ≠ [] := by rintro rfl; simp at hl'; omega
      rw [if_neg (by simpa using hd)]
      have hmod : s ≤ (data ++ d).length - (data ++ d).length % s := by
        have h1 := Nat.div_add_mod (data ++ d).length s
        have h2 : 1 ≤ (data ++ d).length / s := (Nat.one_le_div_iff hs0).2 (by simpa using hl')
        have h3 : s * 1 ≤ s * ((data ++ d).length / s) := Nat.mul_le_mul_left s h2
        omega
      dsimp only
      rw [CFB.decryptInner_bad h hiv, if_neg]
      · rfl
      · intro h0
        have := congrArg List.length h0
        rw [List.length_take, List.length_nil] at this
        have hpos : 0 < (data ++ d).length := by simp; omega
        omega) ops [] hs0
  rw [List.nil_append] at hf
  change feed (CFB.decStream c p s iv) (CFB.init iv) ops = _ at hf
  by_cases hl : (written ops).length < s
  · rw [if_pos hl] at hf
    have hfin : (CFB.decStream c p s iv).finish ⟨written ops, [], iv⟩ = .error (.err .invalidParameter) := by
      change CFB.decFinish c p s iv ⟨written ops, [], iv⟩ = _
      unfold CFB.decFinish
      dsimp only
      rw [CFB.decryptInner_bad h hiv, if_neg hne]
      rfl
    rw [runStream_of hf, hfin]
    rfl
  · rw [if_neg hl] at hf
    rw [runStream_err hf]

/-! ## CBC decryption with a short IV -/

namespace CBC

theorem decrypt_short (h : Lawful c E D) {p : Padding} {iv : Bytes} {b : Bytes} {blocks : List Bytes} (hb1 : b.length = c.bs)
    (hb : IsBlocks c.bs blocks) :
    decrypt c p iv (b ++ blocks.flatten) = p.unpad (xorBytes ((D b).take iv.length) iv ++ (cbcDec D b blocks).flatten) := by
  have hbb : IsBlocks c.bs (b :: blocks) := .cons hb1 hb
  unfold decrypt
  rw [← List.flatten_cons, if_neg (by rw [hbb.length_flatten, Nat.mul_mod_right]; simp)]
  rw [whileNe_eq (f := decF D) (fun _ => True) (fun iv b _ hb => ⟨by simp [decStep, decF, h.dec _ hb, bind, Except.bind, xorBytes_comm], trivial⟩)
    hbb h.pos trivial [] _ rfl]
  simp only [bind, Except.bind, runPure_decF_snd, cbcDec, List.flatten_cons, List.nil_append]
  rw [xorBytes_comm (D b) iv, ← xorBytes_take_right iv (D b), xorBytes_comm]

/-- Pure decryption step of the stream with a chain value of `n` bytes. -/
def shortF (D : Bytes → Bytes) (n : Nat) (ij b : Bytes) : Bytes × Bytes := (b.take n, xorBytes ((D b).take n) ij ++ (D b).drop n)

theorem sDecStep_short (h : Lawful c E D) {n : Nat} (hn : n ≤ c.bs) (iv b : Bytes) (hiv : iv.length = n) (hb : b.length = c.bs) :
    sDecStep c iv b = .ok (shortF D n iv b) ∧ (shortF D n iv b).1.length = n := by
  have hD := h.lenD b hb
  have hmin : min (D b).length (min iv.length b.length) = n := by omega
  refine ⟨?_, by simp [shortF]; omega⟩
  simp only [sDecStep, shortF, h.dec _ hb, bind, Except.bind, hmin]
  rw [List.take_of_length_le (l := iv) (by omega), List.drop_eq_nil_of_le (as := iv) (by omega), List.append_nil]

theorem runPure_shortF_snd (n : Nat) (iv : Bytes) (bs : List Bytes) : (runPure (shortF D n) iv bs).2 = (cbcDecShort D n iv bs).flatten := by
  induction bs generalizing iv with
  | nil => rfl
  | cons b bs ih => simp [runPure, ih, cbcDecShort, shortF]

theorem decWrite_short (h : Lawful c E D) {iv : Bytes} (hiv : iv.length ≤ c.bs) {m o : Bytes} {s : StreamSt Bytes} (d : Bytes)
    (hR : RGt (shortF D iv.length) c.bs iv m o s) : ∃ s', decWrite c s d = .ok s' ∧ RGt (shortF D iv.length) c.bs iv (m ++ d) o s' := by
  obtain ⟨blocks, h1, h2, h3, h3', h4, h5⟩ := hR
  have hst : s.st.length = iv.length := by
    rw [h4]; exact runPure_inv _ (fun j => j.length = iv.length) c.bs (fun s b a b' => (sDecStep_short h hiv s b a b').2) rfl h1
  unfold decWrite
  by_cases hd : d = []
  · subst hd; exact ⟨s, by simp, blocks, h1, by simpa using h2, h3, by simpa using h3', h4, h5⟩
  rw [if_neg (by simpa using hd)]
  obtain ⟨bs', t', g1, g2, g2', g3⟩ := exists_blocks_last h.pos (s.data ++ d) (by simp [hd])
  simp only [bind, Except.bind]
  rw [whileGt_eq (fun j => j.length = iv.length) (sDecStep_short h hiv) g1 h.pos g2 g2' hst _ _ g3]
  refine ⟨_, rfl, blocks ++ bs', h1.append g1, ?_, g2, fun _ => g2', ?_, ?_⟩
  · simp only [List.flatten_append, List.append_assoc, h2, g3]
  · rw [runPure_append]; simp only [← h4]
  · rw [runPure_append]; simp only [← h5, ← h4, List.append_assoc]

theorem cbcDecShort_append (n : Nat) (iv : Bytes) (a b : List Bytes) :
    cbcDecShort D n iv (a ++ b) = cbcDecShort D n iv a ++ cbcDecShort D n (runPure (shortF D n) iv a).1 b := by
  induction a generalizing iv with
  | nil => simp [cbcDecShort, runPure]
  | cons x a ih => simp [cbcDecShort, runPure, ih, shortF]

theorem decRun_short (h : Lawful c E D) {p : Padding} {iv : Bytes} (hiv : iv.length ≤ c.bs) {cb : List Bytes} {last : Bytes}
    (hcb : IsBlocks c.bs cb) (hl : last.length = c.bs) (ops : List (Bytes × Bool)) (hops : written ops = cb.flatten ++ last) :
    runStream (decStream c p iv) (init iv) ops = (do
      let u ← p.unpad ((cbcDecShort D iv.length (runPure (shortF D iv.length) iv cb).1 [last]).flatten)
      .ok ((cbcDecShort D iv.length iv cb).flatten ++ u, init iv)) := by
  obtain ⟨out, s, h1, xb, g1, g2, g3, g4, g5, g6⟩ := feed_inv (str := decStream c p iv) (s := init iv) (RGt (shortF D iv.length) c.bs iv)
    (fun m o s d hR => decWrite_short h hiv d hR) (fun _ _ _ hR => hR.draw) ops RGt.init
  simp only [List.nil_append] at g2 g4 g6
  have hne : written ops ≠ [] := by
    intro h0; rw [h0] at hops
    have := congrArg List.length hops
    simp [hl] at this
    have := h.pos; omega
  obtain ⟨hx, hdl⟩ := snoc_inj h.pos g1 hcb g3 (g4 hne) hl (by rw [← g2, hops])
  subst hx
  have hst : s.st.length = iv.length := by
    rw [g5]; exact runPure_inv _ (fun j => j.length = iv.length) c.bs (fun s b a b' => (sDecStep_short h hiv s b a b').2) rfl g1
  have hD := h.lenD last hl
  have hfin : (decStream c p iv).finish s = (do
      let u ← p.unpad ((cbcDecShort D iv.length s.st [last]).flatten)
      .ok (s.pond ++ u, init iv)) := by
    have hmin : min (D last).length s.st.length = iv.length := by omega
    change decFinish c p iv s = _
    simp only [decFinish, hdl, h.dec _ hl, bind, Except.bind, hmin, cbcDecShort, List.flatten_cons, List.flatten_nil, List.append_nil]
    rw [List.take_of_length_le (l := s.st) (by omega)]
    rfl
  simp only [runStream, h1, bind, Except.bind, hfin]
  rw [g5]
  cases p.unpad ((cbcDecShort D iv.length (runPure (shortF D iv.length) iv xb).1 [last]).flatten) with
  | error e => rfl
  | ok u => simp only []; rw [← List.append_assoc, g6, runPure_shortF_snd]

end CBC

end Verif.Model
