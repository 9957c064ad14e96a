import Verif.Proof.FlakyCTR

/-! Helper lemmas: CBC encryption over a cipher that may fail, and the streams over a cipher that does not fail against the models of the modes -/

namespace Verif.Model.Flaky
open Verif.Spec
open Verif.Spec.Flaky (Op Rules first twice writeCut writeTwice finishChain)

variable {c : BlockCipher} {E D : Bytes → Bytes} {fail : Sched}

/-- The step of `CBCEncrypt::finish` when the cipher serves the call. -/
def finF (E : Bytes → Bytes) (iv ij b : Bytes) : Bytes × Bytes := (iv, E (xorBytes b ij))

theorem runPure_finF (iv ij b : Bytes) (bs : List Bytes) :
    (runPure (finF E iv) ij (b :: bs)).2 = E (xorBytes b ij) ++ (bs.map fun b => E (xorBytes b iv)).flatten := by
  induction bs generalizing ij b with
  | nil => simp [runPure, finF]
  | cons b' bs ih =>
    rw [runPure]
    simp only
    rw [show (finF E iv ij b).1 = iv from rfl, ih iv b', List.map_cons, List.flatten_cons]
    rfl

theorem cbcFinish_last (h : Lawful c E D) {iv : Bytes} (hiv : iv.length = c.bs) {p : Padding} (hp : ∀ d, ∃ pb, IsBlocks c.bs pb ∧ pb ≠ [] ∧ p.padding d = pb.flatten)
    {spoil : (Bytes → Bytes) → Bytes → Bytes} {x : Spec.Flaky.St} {s : St Bytes} (hR : R (CBC.encF E) c.bs iv x s) :
    (encFinish c.bs (body fail (CBC.finStep c iv) spoil) p s).1 =
      (finishChain (bad fail) c.bs p.padding (fun m => (Spec.cbcEnc E iv (blocksOf c.bs m)).flatten)
        (fun m => ((blocksOf c.bs m).map fun b => E (xorBytes b iv)).flatten) x).1 := by
  obtain ⟨pb, g1, g0, g2⟩ := hp s.data
  obtain ⟨e1, -⟩ := hR.data_eq
  obtain ⟨blocks, o, h1, h2, h3, h4, h5, h6, h7⟩ := hR
  have hinv : s.st.length = c.bs := by
    rw [h5]; exact runPure_inv (CBC.encF E) (fun v => v.length = c.bs) c.bs (fun v b a b' => (CBC.sEncStep_ok h v b a b').2) hiv h1
  have hstep : ∀ v b, v.length = c.bs → b.length = c.bs → CBC.finStep c iv v b = .ok (finF E iv v b) ∧ (finF E iv v b).1.length = c.bs := by
    intro v b hv hb
    refine ⟨?_, hiv⟩
    rw [CBC.finStep, h.enc _ (by rw [length_xorBytes, hv, hb, Nat.min_self])]
    rfl
  unfold encFinish finishChain
  simp only [e1]
  have hlen : (p.padding s.data).length / c.bs = pb.length := by rw [g2, g1.length_flatten, Nat.mul_div_cancel_left _ h.pos]
  rw [hlen, loop_eq (tail := []) (cont := contNe) (Inv := fun v => v.length = c.bs) hstep g1 h.pos (fun k hk => contNe_blocks h.pos k _ hk) (by simp [contNe]) hinv _ _ _ (by simp [g2]) _
    (Nat.lt_succ_self _), h4]
  cases hft : first (bad fail) x.t pb.length with
  | some k => rfl
  | none =>
    simp only
    cases pb with
    | nil => exact absurd rfl g0
    | cons b bs =>
      have ht : (p.padding s.data).take c.bs = b := by rw [g2, List.flatten_cons, ← g1.head, List.take_left]
      have hd : (p.padding s.data).drop c.bs = bs.flatten := by rw [g2, List.flatten_cons, ← g1.head, List.drop_left]
      have hb1 : IsBlocks c.bs (blocks ++ [b]) := h1.append (.cons g1.head .nil)
      rw [ht, hd, h3, (take_blocks h1 h2 _).1, runPure_finF]
      rw [show blocks.flatten ++ b = (blocks ++ [b]).flatten by simp, blocksOf_flatten' h.pos hb1, blocksOf_flatten' h.pos g1.tail, ← CBC.runPure_encF_snd,
        runPure_append, ← h5, ← h6, ← h7, List.append_assoc, List.append_assoc, List.drop_left]
      simp [runPure, CBC.encF]

theorem run_last {σ : Type} {o : Obj σ} {I : Rules} (Q : Spec.Flaky.St → St σ → Prop)
    (hw : ∀ x s d, Q x s → (o.write s d).1 = (I.write x d).1 ∧ Q (I.write x d).2 (o.write s d).2)
    (hn : ∀ s, o.write s [] = (.ok (), s))
    (hd : ∀ x s, Q x s → s.pond = (I.out (x.m.take (I.n * x.e))).drop x.h ∧
      Q { x with h := (I.out (x.m.take (I.n * x.e))).length } { s with pond := [] })
    (hf : ∀ x s, Q x s → (o.finish s).1 = (I.finish x).1)
    (hr : ∀ x s, Q x s → Q (Spec.Flaky.St.new x.t) (o.reset s))
    (ops : List Op) (hops : ∀ op ∈ ops, op ≠ .finish) {x : Spec.Flaky.St} {s : St σ} (h : Q x s) :
    o.run s (ops ++ [.finish]) = I.run x (ops ++ [.finish]) := by
  induction ops generalizing x s with
  | nil => simp only [List.nil_append, Obj.run, Rules.run, hf x s h]
  | cons op ops ih =>
    have ih := fun {x s} => ih (fun op h => hops op (List.mem_cons_of_mem _ h)) (x := x) (s := s)
    rw [List.cons_append]
    cases op with
    | write d =>
      obtain ⟨h1, h2⟩ := hw x s d h
      rw [Obj.run, Rules.run, h1, ih h2]
    | draw =>
      obtain ⟨h1, h2⟩ := hd x s h
      rw [Obj.run, Rules.run, hn]
      simp only [Except.map]
      rw [← h1, ih h2]
    | finish => exact absurd rfl (hops _ List.mem_cons_self)
    | reset => rw [Obj.run, Rules.run, ih (hr x s h)]

/-! ## A cipher that does not fail -/

/-- The stream without the number of calls. -/
def St.forget {σ : Type} (s : St σ) : StreamSt σ := ⟨s.data, s.pond, s.st⟩

/-- The result of `write` and, if it succeeds, the stream it leaves are those of the other model. -/
def SameWrite {σ : Type} (r : Res Unit × St σ) (r' : Res (StreamSt σ)) : Prop := r.1.map (fun _ => r.2.forget) = r'

/-- Likewise for `finish`. -/
def SameFinish {σ : Type} (r : Res Bytes × St σ) (r' : Res (Bytes × StreamSt σ)) : Prop := r.1.map (fun o => (o, r.2.forget)) = r'

section
variable {σ : Type} {step : σ → Bytes → Res (σ × Bytes)} {spoil : (Bytes → Bytes) → σ → σ}

theorem body_never (hf : ∀ t, fail t = none) (t : Nat) (s : σ) (b : Bytes) :
    body fail step spoil t s b = match step s b with | .ok (s', o) => (none, s', o) | .error e => (some e, s, []) := by
  simp only [body, hf]
  cases step s b <;> rfl

/-- How the loop is left against `whileLen`. -/
def SameLoop (l : Left σ) (r : Res (σ × Bytes × Bytes)) : Prop :=
  match r with
  | .ok (s, dst, rest) => l.error = none ∧ l.st = s ∧ l.dst = dst ∧ l.data = rest
  | .error e => l.error = some e

theorem loop_never (hf : ∀ t, fail t = none) (cont : Nat → Bool) (n fuel t : Nat) (s : σ) (dst data : Bytes) :
    SameLoop (loop cont n (body fail step spoil) fuel t s dst data) (whileLen cont n step fuel s dst data) := by
  induction fuel generalizing t s dst data with
  | zero => rfl
  | succ fuel ih =>
    rw [loop, whileLen]
    by_cases hc : cont data.length
    · rw [if_pos hc, if_pos hc, body_never hf]
      cases hs : step s (data.take n) with
      | error e => rfl
      | ok r => exact ih (t + 1) r.1 (dst ++ r.2) (data.drop n)
    · rw [if_neg hc, if_neg hc]
      exact ⟨rfl, rfl, rfl, rfl⟩

theorem encRest_never (hf : ∀ t, fail t = none) (n : Nat) (s : St σ) (data : Bytes) :
    SameWrite (encRest n (body fail step spoil) s data) (do
      let (st, pond, rest) ← whileLen (contGe n) n step (data.length + 1) s.st s.pond data
      .ok { data := s.data ++ rest, pond := pond, st := st }) := by
  have := loop_never (spoil := spoil) (step := step) hf (contGe n) n (data.length + 1) s.calls s.st s.pond data
  unfold encRest SameWrite
  simp only
  cases hw : whileLen (contGe n) n step (data.length + 1) s.st s.pond data with
  | error e =>
    rw [hw] at this
    simp only [SameLoop] at this
    rw [this]
    rfl
  | ok r =>
    obtain ⟨st, pond, rest⟩ := r
    rw [hw] at this
    obtain ⟨h1, h2, h3, h4⟩ := this
    rw [h1]
    simp only [h2, h3, h4, St.forget, Except.map]
    rfl

theorem encWrite_never (hf : ∀ t, fail t = none) (n : Nat) (s : St σ) (data : Bytes) :
    SameWrite (encWrite n (body fail step spoil) s data) (do
      if data.isEmpty then .ok s.forget else
      if n < s.data.length then .error .panic else
      let len := min (n - s.data.length) data.length
      let sdata := s.data ++ data.take len
      let data := data.drop len
      let (st, pond, sdata) ← if sdata.length = n then
          (do let (st, o) ← step s.st sdata; .ok (st, s.pond ++ o, []))
        else .ok (s.st, s.pond, sdata)
      let (st, pond, rest) ← whileLen (contGe n) n step (data.length + 1) st pond data
      .ok { data := sdata ++ rest, pond := pond, st := st }) := by
  unfold encWrite
  by_cases h1 : data.isEmpty
  · rw [if_pos h1, if_pos h1]; rfl
  rw [if_neg h1, if_neg h1]
  by_cases h2 : n < s.data.length
  · rw [if_pos h2, if_pos h2]; rfl
  rw [if_neg h2, if_neg h2]
  simp only
  by_cases h3 : (s.data ++ data.take (min (n - s.data.length) data.length)).length = n
  · rw [if_pos h3, if_pos h3, body_never hf]
    cases hs : step s.st (s.data ++ data.take (min (n - s.data.length) data.length)) with
    | error e => rfl
    | ok r =>
      obtain ⟨st, o⟩ := r
      exact encRest_never hf n _ _
  · rw [if_neg h3, if_neg h3]
    exact encRest_never hf n _ _

end

theorem ecbEnc_write_never (hf : ∀ t, fail t = none) (p : Padding) (s : St Unit) (d : Bytes) :
    SameWrite ((ecbEnc c fail p).write s d) ((ECB.encStream c p).write s.forget d) := by
  have := encWrite_never (step := ECB.encStep c) (spoil := fun _ s => s) hf c.bs s d
  refine Eq.trans this ?_
  simp only [ECB.encStream, ECB.encWrite, St.forget]
  split
  · rfl
  split
  · rfl
  split
  · simp only [ECB.encStep]
    cases c.encrypt (s.data ++ d.take (min (c.bs - s.data.length) d.length)) <;> rfl
  · rfl

theorem cbcEnc_write_never (hf : ∀ t, fail t = none) (p : Padding) (iv : Bytes) (s : St Bytes) (d : Bytes) :
    SameWrite ((cbcEnc c fail p iv).write s d) ((CBC.encStream c p iv).write s.forget d) :=
  encWrite_never (step := CBC.sEncStep c) (spoil := fun g ij => g ij) hf c.bs s d

theorem whileLen_rest {σ : Type} {step : σ → Bytes → Res (σ × Bytes)} {n : Nat} (hn : 0 < n) (fuel : Nat) {s s' : σ} {dst dst' data rest : Bytes}
    (h : whileLen (contGe n) n step fuel s dst data = .ok (s', dst', rest)) : rest = data.drop (data.length - data.length % n) := by
  induction fuel generalizing s dst data with
  | zero => simp [whileLen] at h
  | succ fuel ih =>
    rw [whileLen] at h
    by_cases hc : contGe n data.length
    · rw [if_pos hc] at h
      cases hs : step s (data.take n) with
      | error e => rw [hs] at h; simp at h
      | ok r =>
        rw [hs] at h
        have hl : n ≤ data.length := by simpa [contGe] using hc
        have := ih h
        have hm : data.length % n = (data.length - n) % n := by rw [Nat.mod_eq_sub_mod hl]
        have := Nat.mod_le (data.length - n) n
        rw [‹rest = _›, List.length_drop, List.drop_drop, hm]
        congr 1
        omega
    · rw [if_neg hc] at h
      have hl : data.length < n := by simpa [contGe] using hc
      have : rest = data := by cases h; rfl
      rw [this, Nat.mod_eq_of_lt hl, Nat.sub_self, List.drop_zero]

theorem cfbEnc_write_never (hf : ∀ t, fail t = none) (p : Padding) {s : Nat} (hs : 0 < s) (iv : Bytes) (u : St Bytes) (d : Bytes) :
    SameWrite ((cfbEnc c fail p s iv).write u d) ((CFB.encStream c p s iv).write u.forget d) := by
  have := encWrite_never (step := CFB.encStep c s) (spoil := fun _ ij => ij) hf s u d
  refine Eq.trans this ?_
  have hrest : ∀ (st pond sdata data : Bytes), (do
      let (st, pond, rest) ← whileLen (contGe s) s (CFB.encStep c s) (data.length + 1) st pond data
      (.ok { data := sdata ++ rest, pond := pond, st := st } : Res (StreamSt Bytes))) = (do
      let (ij, pond) ← CFB.encryptInner c s st pond data
      .ok { data := sdata ++ data.drop (data.length - data.length % s), pond := pond, st := ij }) := by
    intro st pond sdata data
    unfold CFB.encryptInner
    cases hw : whileLen (contGe s) s (CFB.encStep c s) (data.length + 1) st pond data with
    | error e => rfl
    | ok r =>
      obtain ⟨st', pond', rest⟩ := r
      have := whileLen_rest hs _ hw
      subst this
      rfl
  simp only [CFB.encStream, CFB.encWrite, St.forget]
  split
  · rfl
  split
  · rfl
  split
  · rename_i h3
    have hone : CFB.encryptInner c s u.st u.pond (u.data ++ d.take (min (s - u.data.length) d.length)) = (do
        let (st, o) ← CFB.encStep c s u.st (u.data ++ d.take (min (s - u.data.length) d.length))
        .ok (st, u.pond ++ o)) := by
      generalize u.data ++ d.take (min (s - u.data.length) d.length) = b at h3
      unfold CFB.encryptInner
      rw [whileLen, if_pos (by simp [contGe, h3]), List.take_of_length_le (Nat.le_of_eq h3), List.drop_eq_nil_of_le (Nat.le_of_eq h3)]
      cases CFB.encStep c s u.st b with
      | error e => rfl
      | ok r =>
        rw [h3]
        cases s with
        | zero => omega
        | succ s => rfl
    rw [hone]
    cases CFB.encStep c s u.st (u.data ++ d.take (min (s - u.data.length) d.length)) with
    | error e => rfl
    | ok r => exact hrest _ _ _ _
  · exact hrest _ _ _ _

section
variable {σ : Type} {step : σ → Bytes → Res (σ × Bytes)} {spoil : (Bytes → Bytes) → σ → σ}

/-- Using the loop: what is done on success. -/
theorem loop_use {α β : Type} (hf : ∀ t, fail t = none) {cont : Nat → Bool} {n fuel t : Nat} {st : σ} {dst data : Bytes}
    {ok : Left σ → Res α × St σ} {err : Fault → Left σ → Res α × St σ} {ok' : σ × Bytes × Bytes → Res β} {g : Res α × St σ → Res β}
    (herr : ∀ e l, g (err e l) = .error e)
    (hok : ∀ l : Left σ, g (ok l) = ok' (l.st, l.dst, l.data)) :
    g (match (loop cont n (body fail step spoil) fuel t st dst data).error with
      | some e => err e (loop cont n (body fail step spoil) fuel t st dst data)
      | none => ok (loop cont n (body fail step spoil) fuel t st dst data)) =
      (whileLen cont n step fuel st dst data >>= ok') := by
  have := loop_never (spoil := spoil) (step := step) hf cont n fuel t st dst data
  cases hw : whileLen cont n step fuel st dst data with
  | error e =>
    rw [hw] at this
    simp only [SameLoop] at this
    rw [this]
    exact herr e _
  | ok r =>
    obtain ⟨s', dst', rest⟩ := r
    rw [hw] at this
    obtain ⟨h1, h2, h3, h4⟩ := this
    rw [h1]
    simp only
    rw [hok, h2, h3, h4]
    rfl

end

theorem ecbEnc_finish_never (hf : ∀ t, fail t = none) (p : Padding) (s : St Unit) :
    SameFinish ((ecbEnc c fail p).finish s) ((ECB.encStream c p).finish s.forget) :=
  loop_use (g := fun r => r.1.map fun o => (o, r.2.forget)) (err := fun e l => (.error e, { data := p.padding s.data, pond := l.dst, st := l.st, calls := l.calls }))
    (ok := fun l => (.ok l.dst, { data := [], pond := [], st := l.st, calls := l.calls })) hf (fun _ _ => rfl) (fun _ => rfl)

theorem cbcEnc_finish_never (hf : ∀ t, fail t = none) (p : Padding) (iv : Bytes) (s : St Bytes) :
    SameFinish ((cbcEnc c fail p iv).finish s) ((CBC.encStream c p iv).finish s.forget) :=
  loop_use (g := fun r => r.1.map fun o => (o, r.2.forget)) (err := fun e l => (.error e, { data := p.padding s.data, pond := l.dst, st := l.st, calls := l.calls }))
    (ok := fun l => (.ok l.dst, { data := [], pond := [], st := l.st, calls := l.calls })) hf (fun _ _ => rfl) (fun _ => rfl)

theorem cfbEnc_finish_never (hf : ∀ t, fail t = none) (p : Padding) (s : Nat) (iv : Bytes) (u : St Bytes) :
    SameFinish ((cfbEnc c fail p s iv).finish u) ((CFB.encStream c p s iv).finish u.forget) := by
  refine Eq.trans (loop_use (g := fun r => r.1.map fun o => (o, r.2.forget))
    (err := fun e l => (.error e, { data := p.padding u.data, pond := l.dst, st := l.st, calls := l.calls }))
    (ok := fun l => (.ok l.dst, { data := [], pond := [], st := iv, calls := l.calls }))
    (ok' := fun r => .ok (r.2.1, { data := [], pond := [], st := iv })) hf (fun _ _ => rfl) (fun _ => rfl)) ?_
  simp only [CFB.encStream, CFB.encFinish, CFB.encryptInner, St.forget]
  cases whileLen (contGe s) s (CFB.encStep c s) ((p.padding u.data).length + 1) u.st u.pond (p.padding u.data) <;> rfl

theorem ecbDec_write_never (hf : ∀ t, fail t = none) (p : Padding) (s : St Unit) (d : Bytes) :
    SameWrite ((ecbDec c fail p).write s d) ((ECB.decStream c p).write s.forget d) := by
  simp only [ecbDec, decWrite, ECB.decStream, ECB.decWrite]
  split
  · rfl
  exact loop_use (g := fun r => r.1.map fun _ => r.2.forget) (err := fun e l => (.error e, { data := s.data ++ d, pond := l.dst, st := l.st, calls := l.calls }))
    (ok := fun l => (.ok (), { data := l.data, pond := l.dst, st := l.st, calls := l.calls })) hf (fun _ _ => rfl) (fun _ => rfl)

theorem cbcDec_write_never (hf : ∀ t, fail t = none) (p : Padding) (iv : Bytes) (s : St Bytes) (d : Bytes) :
    SameWrite ((cbcDec c fail p iv).write s d) ((CBC.decStream c p iv).write s.forget d) := by
  simp only [cbcDec, decWrite, CBC.decStream, CBC.decWrite]
  split
  · rfl
  exact loop_use (g := fun r => r.1.map fun _ => r.2.forget) (err := fun e l => (.error e, { data := s.data ++ d, pond := l.dst, st := l.st, calls := l.calls }))
    (ok := fun l => (.ok (), { data := l.data, pond := l.dst, st := l.st, calls := l.calls })) hf (fun _ _ => rfl) (fun _ => rfl)

theorem ecbDec_finish_never (hf : ∀ t, fail t = none) (p : Padding) (s : St Unit) :
    SameFinish ((ecbDec c fail p).finish s) ((ECB.decStream c p).finish s.forget) := by
  simp only [ecbDec, decFinish, ECB.decStream, ECB.decFinish, hf, SameFinish, St.forget]
  cases c.decrypt s.data with
  | error e => rfl
  | ok t =>
    simp only [bind, Except.bind]
    cases p.unpad t <;> rfl

theorem cbcDec_finish_never (hf : ∀ t, fail t = none) (p : Padding) (iv : Bytes) (s : St Bytes) :
    SameFinish ((cbcDec c fail p iv).finish s) ((CBC.decStream c p iv).finish s.forget) := by
  simp only [cbcDec, decFinish, CBC.decStream, CBC.decFinish, hf, SameFinish, St.forget]
  cases c.decrypt s.data with
  | error e => rfl
  | ok t =>
    simp only [bind, Except.bind]
    cases p.unpad (xorBytes (t.take (min t.length s.st.length)) (s.st.take (min t.length s.st.length)) ++ t.drop (min t.length s.st.length)) <;> rfl

theorem cfbDec_write_never (hf : ∀ t, fail t = none) (p : Padding) (s : Nat) (iv : Bytes) (u : St Bytes) (d : Bytes) :
    SameWrite ((cfbDec c fail p s iv).write u d) ((CFB.decStream c p s iv).write u.forget d) := by
  simp only [cfbDec, wholeWrite, CFB.decStream, CFB.decWrite, CFB.decryptInner]
  split
  · rfl
  refine Eq.trans (loop_use (g := fun r => r.1.map fun _ => r.2.forget) (err := fun e l => (.error e, { data := u.data ++ d, pond := l.dst, st := l.st, calls := l.calls }))
    (ok := fun l => (.ok (), { data := (u.data ++ d).drop ((u.data ++ d).length - (u.data ++ d).length % s), pond := l.dst, st := l.st, calls := l.calls }))
    (ok' := fun r => .ok { data := (u.data ++ d).drop ((u.data ++ d).length - (u.data ++ d).length % s), pond := r.2.1, st := r.1 })
    hf (fun _ _ => rfl) (fun _ => rfl)) ?_
  simp only [St.forget]
  generalize whileLen _ _ _ _ _ _ _ = r
  cases r <;> rfl

theorem cfbDec_finish_never (hf : ∀ t, fail t = none) (p : Padding) (s : Nat) (iv : Bytes) (u : St Bytes) :
    SameFinish ((cfbDec c fail p s iv).finish u) ((CFB.decStream c p s iv).finish u.forget) := by
  refine Eq.trans (loop_use (g := fun r => r.1.map fun o => (o, r.2.forget))
    (err := fun e l => (.error e, { data := u.data, pond := l.dst, st := l.st, calls := l.calls }))
    (ok := fun l => match p.unpad l.dst with
      | .error e => (.error e, { data := u.data, pond := l.dst, st := l.st, calls := l.calls })
      | .ok out => (.ok out, { data := [], pond := [], st := iv, calls := l.calls }))
    (ok' := fun r => match p.unpad r.2.1 with
      | .error e => .error e
      | .ok out => .ok (out, { data := [], pond := [], st := iv })) hf (fun _ _ => rfl) (fun l => by cases p.unpad l.dst <;> rfl)) ?_
  simp only [CFB.decStream, CFB.decFinish, CFB.decryptInner, St.forget]
  generalize whileLen _ _ _ _ _ _ _ = r
  cases r with
  | error e => rfl
  | ok r =>
    simp only [bind, Except.bind]
    cases p.unpad r.2.1 <;> rfl

theorem ofb_write_never (hf : ∀ t, fail t = none) (iv : Bytes) (s : St Bytes) (d : Bytes) :
    SameWrite ((ofb c fail iv).write s d) ((OFB.stream c iv).write s.forget d) := by
  simp only [ofb, ofbWrite, OFB.stream, OFB.write, OFB.encryptInner]
  split
  · rfl
  refine Eq.trans (loop_use (g := fun r => r.1.map fun _ => r.2.forget) (err := fun e l => (.error e, { data := s.data ++ d, pond := l.dst, st := l.st, calls := l.calls }))
    (ok := fun l => (.ok (), { data := (s.data ++ d).drop ((s.data ++ d).length - (s.data ++ d).length % c.bs), pond := l.dst, st := l.st, calls := l.calls }))
    (ok' := fun r => .ok { data := (s.data ++ d).drop ((s.data ++ d).length - (s.data ++ d).length % c.bs), pond := r.2.1, st := r.1 })
    hf (fun _ _ => rfl) (fun _ => rfl)) ?_
  simp only [St.forget]
  generalize whileLen _ _ _ _ _ _ _ = r
  cases r <;> rfl

theorem ofb_finish_never (hf : ∀ t, fail t = none) (iv : Bytes) (s : St Bytes) :
    SameFinish ((ofb c fail iv).finish s) ((OFB.stream c iv).finish s.forget) := by
  simp only [ofb, ofbFinish, OFB.stream, OFB.finish, hf, SameFinish, St.forget]
  split
  · rfl
  · cases c.encrypt s.st <;> rfl

theorem ctr_write_never {κ : Type} {ops : CounterOps κ} (hf : ∀ t, fail t = none) (s : St κ) (d : Bytes) :
    SameWrite ((ctr c fail ops).write s d) ((CTR.stream c ops).write s.forget d) := by
  simp only [ctr, wholeWrite, CTR.stream, CTR.write, CTR.encryptInner]
  split
  · rfl
  refine Eq.trans (loop_use (g := fun r => r.1.map fun _ => r.2.forget) (err := fun e l => (.error e, { data := s.data ++ d, pond := l.dst, st := l.st, calls := l.calls }))
    (ok := fun l => (.ok (), { data := (s.data ++ d).drop ((s.data ++ d).length - (s.data ++ d).length % c.bs), pond := l.dst, st := l.st, calls := l.calls }))
    (ok' := fun r => .ok { data := (s.data ++ d).drop ((s.data ++ d).length - (s.data ++ d).length % c.bs), pond := r.2.1, st := r.1 })
    hf (fun _ _ => rfl) (fun _ => rfl)) ?_
  simp only [St.forget]
  generalize whileLen _ _ _ _ _ _ _ = r
  cases r <;> rfl

theorem ctr_finish_never {κ : Type} {ops : CounterOps κ} (hf : ∀ t, fail t = none) (s : St κ) :
    SameFinish ((ctr c fail ops).finish s) ((CTR.stream c ops).finish s.forget) := by
  refine Eq.trans (loop_use (g := fun r => r.1.map fun o => (o, r.2.forget))
    (err := fun e l => (.error e, { s with pond := l.dst, st := l.st, calls := l.calls }))
    (ok := fun l => (.ok l.dst, { data := [], pond := [], st := l.st, calls := l.calls }))
    (ok' := fun r => .ok (r.2.1, { data := [], pond := [], st := r.1 })) hf (fun _ _ => rfl) (fun _ => rfl)) ?_
  simp only [CTR.stream, CTR.finish, CTR.encryptInner, St.forget]
  generalize whileLen _ _ _ _ _ _ _ = r
  cases r <;> rfl

end Verif.Model.Flaky
