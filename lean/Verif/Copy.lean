import Verif.ReadStd
import Verif.ReaderExact
import Verif.WriterFacts

/-!
# Copying

Model of `src/copy.rs` from a `TextReader` to a `TextWriter`.  The number of iterations is bounded by `fuel`; `none` means
that the loop has not ended by then.  `len` is the size of the buffer, the larger of the two suggested sizes.
-/

namespace Verif
open Ucd
variable {U : Ucd}

inductive CopyRet where
  | ok (n : Nat)
  | readError (r : StdRet)
  | writeError
  | panic
  deriving DecidableEq, Repr

structure CopyResult where
  ret : CopyRet
  input : TextInput
  src : List Event
  writer : Writer
  deriving DecidableEq, Repr

/-- `copy_text` (`src/copy.rs:8-30`); `n` is `written`.  The text in `buf[..len]` is what the read has written. -/
def copyText (U : Ucd) (len : Nat) : Nat → TextInput → List Event → Writer → Nat → Option CopyResult
  | 0, _, _, _, _ => none
  | fuel + 1, t, src, w, n =>
    let r := readWithStatus U len t src
    match stdRet r.ret with
    | .ok 0 => some { ret := .ok n, input := r.input, src := r.src, writer := w }
    | .ok (m + 1) =>
      match writeText U w r.out with
      | (w, .ok) => copyText U len fuel r.input r.src w (n + (m + 1))
      | (w, .err) => some { ret := .writeError, input := r.input, src := r.src, writer := w }
      | (w, .panic) => some { ret := .panic, input := r.input, src := r.src, writer := w }
    | .interrupted => copyText U len fuel r.input r.src w n
    | .panic => some { ret := .panic, input := r.input, src := r.src, writer := w }
    | e => some { ret := .readError e, input := r.input, src := r.src, writer := w }

/-- `copy_text_using_status` (`src/copy.rs:37-59`). -/
def copyTextUsingStatus (U : Ucd) (len : Nat) : Nat → TextInput → List Event → Writer → Nat → Option CopyResult
  | 0, _, _, _, _ => none
  | fuel + 1, t, src, w, n =>
    let r := readWithStatus U len t src
    match r.ret with
    | .ok m st =>
      match writeText U w r.out with
      | (w, .ok) =>
        match st with
        | .end_ => some { ret := .ok (n + m), input := r.input, src := r.src, writer := w }
        | .push =>
          match flush w with
          | (w, .ok) => copyTextUsingStatus U len fuel r.input r.src w (n + m)
          | (w, _) => some { ret := .writeError, input := r.input, src := r.src, writer := w }
        | .active => copyTextUsingStatus U len fuel r.input r.src w (n + m)
      | (w, .err) => some { ret := .writeError, input := r.input, src := r.src, writer := w }
      | (w, .panic) => some { ret := .panic, input := r.input, src := r.src, writer := w }
    | .panic => some { ret := .panic, input := r.input, src := r.src, writer := w }
    | .invalidInput => some { ret := .readError .invalidInput, input := r.input, src := r.src, writer := w }
    | .sourceError => some { ret := .readError .sourceError, input := r.input, src := r.src, writer := w }

/-! ## Theory -/

/-- The writer can take more text, and the sink does not fail. -/
structure Willing (w : Writer) : Prop where
  state : ∃ g, w.state = .ground g
  buffer : w.buffer = []
  alive : w.sink.dead = false
  reliable : w.sink.script = []

theorem writeText_good (hU : TextLaws U) {w : Writer} (hw : Willing w) {s : List Char}
    (h : w.expectStarter = true → ∀ c ∈ s.head?, isStart U c = true) :
    writeText U w s = ({ w with expectStarter := false, state := .ground (groundAfter s), sink := { w.sink with sent := w.sink.sent ++ enc w.crlf s } }, .ok) := by
  obtain ⟨g, hg⟩ := hw.state
  exact step_good (op := .text s) hU rfl hg hw.buffer hw.alive hw.reliable ⟨trivial, fun he c hc => h he c hc⟩

theorem enc_append (b : Bool) (x y : List Char) : enc b (x ++ y) = enc b x ++ enc b y := by
  unfold enc; split
  · exact toCrlf_append x y
  · rfl

theorem delivered_cons {r : ReadResult} {rs : List ReadResult} : delivered (r :: rs) = (if r.ret.isOk then r.out else []) ++ delivered rs := rfl

theorem head_append {a b : List Char} (ha : a ≠ []) : (a ++ b).head? = a.head? := by
  cases a with
  | nil => exact absurd rfl ha
  | cons c a => rfl

/-- What the writer looks like after having been given `text`. -/
structure Wrote (w w' : Writer) (text : List Char) : Prop where
  sent : w'.sink = { w.sink with sent := w.sink.sent ++ enc w.crlf text }
  buffer : w'.buffer = []
  ground : ∃ g, w'.state = .ground g
  newline : text.getLast? = some '\n' ∨ (text = [] ∧ w.state = .ground .newline) → w'.state = .ground .newline
  crlf : w'.crlf = w.crlf

theorem Wrote.refl {w : Writer} (h : Willing w) : Wrote w w [] :=
  ⟨by cases w.crlf <;> simp [enc, toCrlf], h.buffer, h.state, by simp, rfl⟩

theorem Wrote.step {w w' : Writer} {s rest : List Char} (_h : Willing w)
    (h' : Wrote { w with expectStarter := false, state := .ground (groundAfter s), sink := { w.sink with sent := w.sink.sent ++ enc w.crlf s } } w' rest) :
    Wrote w w' (s ++ rest) := by
  refine ⟨?_, h'.buffer, h'.ground, ?_, h'.crlf⟩
  · rw [h'.sent, enc_append]; simp
  · intro hl
    apply h'.newline
    simp only
    by_cases hr : rest = []
    · subst hr
      rw [List.append_nil] at hl
      right
      refine ⟨rfl, ?_⟩
      rcases hl with hl | ⟨rfl, -⟩
      · simp [groundAfter, hl]
      · rfl
    · left
      rcases hl with hl | ⟨hl, -⟩
      · rw [List.getLast?_append] at hl
        cases hq : rest.getLast? with
        | none => rw [List.getLast?_eq_none_iff] at hq; exact absurd hq hr
        | some c => rw [hq] at hl; simpa using hl
      · exact absurd (List.append_eq_nil_iff.1 hl).2 hr

theorem willing_step {w : Writer} (h : Willing w) (s : List Char) :
    Willing { w with expectStarter := false, state := .ground (groundAfter s), sink := { w.sink with sent := w.sink.sent ++ enc w.crlf s } } :=
  ⟨⟨_, rfl⟩, h.buffer, h.alive, h.reliable⟩

/-- `copy_text`, while the reads succeed and up to the one that reports the end with no text. -/
theorem copy_reads (hU : TextLaws U) (len : Nat) : ∀ (k : Nat) (t : TextInput) (src : List Event) (w : Writer) (n : Nat), Willing w →
    (∀ r ∈ readMany U (List.replicate k len) t src, ∃ st, r.ret = .ok (encode r.out).length st) →
    (∃ r ∈ readMany U (List.replicate k len) t src, r.ret = .ok 0 .end_) →
    (w.expectStarter = true → ∀ j, j ≤ k → ∀ c ∈ (delivered (readMany U (List.replicate j len) t src)).head?, isStart U c = true) →
    ∃ j r w', (readMany U (List.replicate j len) t src).getLast? = some r ∧ r.ret = .ok 0 .end_ ∧
      copyText U len k t src w n =
        some { ret := .ok (n + (encode (delivered (readMany U (List.replicate j len) t src))).length), input := r.input, src := r.src, writer := w' } ∧
      Wrote w w' (delivered (readMany U (List.replicate j len) t src)) := by
  intro k
  induction k with
  | zero => intro t src w n _ _ ⟨r, hr, _⟩; simp [readMany] at hr
  | succ k ih =>
    intro t src w n hw hok hend hst
    rw [List.replicate_succ, readMany] at hok hend
    generalize hr : readWithStatus U len t src = r at hok hend
    obtain ⟨st, hret⟩ := hok r (by simp)
    have hok' : ∀ r' ∈ readMany U (List.replicate k len) r.input r.src, ∃ st, r'.ret = .ok (encode r'.out).length st :=
      fun r' hr' => hok r' (by simp [hr'])
    have hgo : ∀ j, readMany U (List.replicate (j + 1) len) t src = r :: readMany U (List.replicate j len) r.input r.src := by
      intro j; rw [List.replicate_succ, readMany]; simp only [hr]
    have hisok : r.ret.isOk = true := by rw [hret]; rfl
    rw [copyText]
    simp only [hr]
    by_cases h0 : r.ret = .ok 0 .end_
    · refine ⟨1, r, w, ?_, h0, ?_, ?_⟩
      · rw [hgo]; simp [readMany]
      · have : r.out = [] := by
          rw [h0] at hret
          injection hret with h1 h2
          have := length_le_encode r.out
          exact List.length_eq_zero_iff.1 (by omega)
        rw [hgo, delivered_cons]
        simp [h0, stdRet, this, readMany, delivered, encode]
      · have : r.out = [] := by
          rw [h0] at hret
          injection hret with h1 h2
          have := length_le_encode r.out
          exact List.length_eq_zero_iff.1 (by omega)
        rw [hgo, delivered_cons]
        simp only [this, ite_self, List.nil_append]
        exact Wrote.refl hw
    · have hend' : ∃ r' ∈ readMany U (List.replicate k len) r.input r.src, r'.ret = .ok 0 .end_ := by
        obtain ⟨r', h1, h2⟩ := hend
        simp only [List.mem_cons] at h1
        rcases h1 with rfl | h1
        · exact absurd h2 h0
        · exact ⟨r', h1, h2⟩
      by_cases hz : r.out = []
      · have hs : stdRet r.ret = .interrupted := by
          rw [hret, hz]
          have : st ≠ .end_ := by rintro rfl; exact h0 (by rw [hret, hz]; rfl)
          simp [stdRet, encode, this]
        rw [hs]
        simp only
        obtain ⟨j, r', w', a1, a2, a3, a4⟩ := ih r.input r.src w n hw hok' hend' (fun he j hj => by
          have := hst he (j + 1) (by omega)
          rw [hgo, delivered_cons, hisok, hz] at this
          simpa using this)
        refine ⟨j + 1, r', w', ?_, a2, ?_, ?_⟩
        · rw [hgo, List.getLast?_cons, a1]; rfl
        · rw [a3, hgo, delivered_cons, hisok, hz]; simp
        · rw [hgo, delivered_cons, hisok, hz]; simpa using a4
      · have hpos : 0 < (encode r.out).length := by
          have := length_le_encode r.out
          have := List.length_pos_iff.2 hz
          omega
        obtain ⟨m, hm⟩ : ∃ m, (encode r.out).length = m + 1 := ⟨(encode r.out).length - 1, by omega⟩
        have hs : stdRet r.ret = .ok (m + 1) := by rw [hret, hm]; simp [stdRet]
        rw [hs]
        simp only
        have hgood : w.expectStarter = true → ∀ c ∈ r.out.head?, isStart U c = true := by
          intro he c hc
          have := hst he 1 (by omega)
          rw [hgo, delivered_cons, hisok] at this
          exact this c (by simpa [readMany, delivered] using hc)
        rw [writeText_good hU hw hgood]
        simp only
        obtain ⟨j, r', w', a1, a2, a3, a4⟩ := ih r.input r.src _ (n + (m + 1)) (willing_step hw r.out) hok' hend' (fun he => by simp at he)
        refine ⟨j + 1, r', w', ?_, a2, ?_, ?_⟩
        · rw [hgo, List.getLast?_cons, a1]; rfl
        · rw [a3, hgo, delivered_cons, hisok, if_pos rfl, encode_append, List.length_append, hm]
          congr 3; omega
        · rw [hgo, delivered_cons, hisok, if_pos rfl]
          exact a4.step hw

/-- `copy_text_using_status`, while the reads succeed without pushes and up to the one that reports the end. -/
theorem copyStatus_reads (hU : TextLaws U) (len : Nat) : ∀ (k : Nat) (t : TextInput) (src : List Event) (w : Writer) (n : Nat), Willing w →
    (∀ r ∈ readMany U (List.replicate k len) t src, ∃ st, r.ret = .ok (encode r.out).length st ∧ st ≠ .push) →
    (∃ r ∈ readMany U (List.replicate k len) t src, ∃ m, r.ret = .ok m .end_) →
    (w.expectStarter = true → ∀ j, j ≤ k → ∀ c ∈ (delivered (readMany U (List.replicate j len) t src)).head?, isStart U c = true) →
    ∃ j r m w', (readMany U (List.replicate j len) t src).getLast? = some r ∧ r.ret = .ok m .end_ ∧
      copyTextUsingStatus U len k t src w n =
        some { ret := .ok (n + (encode (delivered (readMany U (List.replicate j len) t src))).length), input := r.input, src := r.src, writer := w' } ∧
      Wrote w w' (delivered (readMany U (List.replicate j len) t src)) := by
  intro k
  induction k with
  | zero => intro t src w n _ _ ⟨r, hr, _⟩; simp [readMany] at hr
  | succ k ih =>
    intro t src w n hw hok hend hst
    rw [List.replicate_succ, readMany] at hok hend
    generalize hr : readWithStatus U len t src = r at hok hend
    obtain ⟨st, hret, hnp⟩ := hok r (by simp)
    have hok' : ∀ r' ∈ readMany U (List.replicate k len) r.input r.src, ∃ st, r'.ret = .ok (encode r'.out).length st ∧ st ≠ .push :=
      fun r' hr' => hok r' (by simp [hr'])
    have hgo : ∀ j, readMany U (List.replicate (j + 1) len) t src = r :: readMany U (List.replicate j len) r.input r.src := by
      intro j; rw [List.replicate_succ, readMany]; simp only [hr]
    have hisok : r.ret.isOk = true := by rw [hret]; rfl
    have hgood : w.expectStarter = true → ∀ c ∈ r.out.head?, isStart U c = true := by
      intro he c hc
      have := hst he 1 (by omega)
      rw [hgo, delivered_cons, hisok] at this
      exact this c (by simpa [readMany, delivered] using hc)
    rw [copyTextUsingStatus]
    simp only [hr, hret, writeText_good hU hw hgood]
    have hdel : ∀ j, delivered (readMany U (List.replicate (j + 1) len) t src) = r.out ++ delivered (readMany U (List.replicate j len) r.input r.src) := by
      intro j; rw [hgo, delivered_cons, hisok, if_pos rfl]
    cases st with
    | push => exact absurd rfl hnp
    | end_ =>
      refine ⟨1, r, _, { w with expectStarter := false, state := .ground (groundAfter r.out), sink := { w.sink with sent := w.sink.sent ++ enc w.crlf r.out } },
        by rw [hgo]; simp [readMany], hret, ?_, ?_⟩
      · rw [hdel]; simp [readMany, delivered]
      · rw [hdel]
        exact (Wrote.refl (willing_step hw r.out)).step hw
    | active =>
      have hend' : ∃ r' ∈ readMany U (List.replicate k len) r.input r.src, ∃ m, r'.ret = .ok m .end_ := by
        obtain ⟨r', h1, m, h2⟩ := hend
        simp only [List.mem_cons] at h1
        rcases h1 with rfl | h1
        · rw [hret] at h2; simp at h2
        · exact ⟨r', h1, m, h2⟩
      obtain ⟨j, r', m, w', a1, a2, a3, a4⟩ := ih r.input r.src _ (n + (encode r.out).length) (willing_step hw r.out) hok' hend' (fun he => by simp at he)
      refine ⟨j + 1, r', m, w', ?_, a2, ?_, ?_⟩
      · rw [hgo, List.getLast?_cons, a1]; rfl
      · simp only
        rw [a3, hdel, encode_append, List.length_append, Nat.add_assoc]
      · rw [hdel]; exact a4.step hw

theorem drain_pending : ∀ (fuel room : Nat) (t : TextInput), (drain U fuel room t).2.2.pending = t.pending := by
  intro fuel
  induction fuel with
  | zero => intro room t; rfl
  | succ fuel ih =>
    intro room t
    have hq : (queueNext U t).2.pending = t.pending := by
      unfold queueNext
      (repeat' split) <;> (try rfl) <;> (dsimp only; (repeat' split) <;> rfl)
    unfold drain
    split
    · rename_i x t' hx; rw [hx] at hq; exact hq
    · rename_i x c t' hx
      rw [hx] at hq
      simp only at hq
      split
      · exact hq
      · split
        · exact hq
        · simp only [ih]; exact hq

/-- A reported end leaves no status waiting. -/
theorem end_pending (hU : TextLaws U) {k0 : Ctl} {t : TextInput} {emitted : List Char} {es src : List Event} {len : Nat} (h : Rel U k0 t emitted es)
    {n : Nat} {st : Status} (hr : (readWithStatus U len t src).ret = .ok n st) (hst : st ≠ .active) : (readWithStatus U len t src).input.pending = .active := by
  unfold readWithStatus at hr ⊢
  have hm : maxUtf8Size = 4 := rfl
  have hN : normalizationBufferSize = 136 := rfl
  by_cases hl : len < normalizationBufferSize
  · rw [if_pos hl] at hr; simp at hr
  · rw [if_neg hl] at hr ⊢
    cases hd : drain U (len + 1) len t with
    | mk stop p =>
      obtain ⟨out, t1⟩ := p
      obtain ⟨i1, i2, i3, i4, i5, i6, i7⟩ := drain_inv hU _ _ _ _ _ h.inv (by omega) (by omega) _ _ _ hd
      rw [hd] at hr
      cases stop with
      | panic => simp at hr
      | full => simp at hr; exact absurd hr.2.symm hst
      | empty =>
        simp only at hr ⊢
        split at hr
        · rename_i hp; rw [if_pos hp]
        · rename_i hp
          rw [if_neg hp]
          have hp : t1.pending = .active := Classical.byContradiction hp
          cases hev : nextEvent src with
          | mk e src' =>
          rw [hev] at hr
          cases e with
          | err => simp at hr
          | data s status =>
            simp only at hr ⊢
            have hdr := drain_pending (U := U) (len + 1) (len - (encode out).length)
              (if status ≠ .active then
            { t1 with ctl := (finish (processRaw U t1.ctl s).1 (t1.queue ++ (processRaw U t1.ctl s).2).getLast? status).1
                      queue := t1.queue ++ (processRaw U t1.ctl s).2 ++ (finish (processRaw U t1.ctl s).1 (t1.queue ++ (processRaw U t1.ctl s).2).getLast? status).2 }
            else { t1 with ctl := (processRaw U t1.ctl s).1, queue := t1.queue ++ (processRaw U t1.ctl s).2 })
            generalize drain U (len + 1) (len - (encode out).length) _ = d at *
            obtain ⟨stop, out', t2⟩ := d
            cases stop with
            | panic => simp at hr
            | full => simp at hr; exact absurd hr.2.symm hst
            | empty =>
              simp only at hdr ⊢
              have : t2.pending = .active := by rw [hdr]; split <;> exact hp
              split <;> exact this

/-- Reading on after the end has been reported gives the end again, and no text. -/
theorem read_after_end (hU : TextLaws U) {src : List Event} (hsrc : Ending src) {nel lsps : Bool} {lens : List Nat} {r : ReadResult} {n : Nat}
    (hr : (readMany U lens (.new nel lsps) src).getLast? = some r) (hok : r.ret = .ok n .end_) {len : Nat} (hl : normalizationBufferSize ≤ len) :
    (readWithStatus U len r.input r.src).ret = .ok 0 .end_ := by
  obtain ⟨es, s, h1, h2, h3⟩ := run_last hU (Rel.init nel lsps) hr hok (by simp)
  have hfin : finalState (.new nel lsps) src (readMany U lens (.new nel lsps) src) = (r.input, r.src) := by simp [finalState, hr]
  rw [hfin] at h1
  simp only [List.nil_append] at h2
  have hsrc' : r.src = [] := by
    obtain ⟨c, hc1, hc2⟩ := hsrc.hist h1
    obtain ⟨m, hm, hm'⟩ := h1
    rw [hc1, List.append_assoc] at hm
    have hm := List.append_cancel_left hm
    by_cases h0 : m = 0
    · subst h0
      simp at hm
      exact hm.2
    · exact hm' h0
  have hset : Settled (absorbAll U ((TextInput.new nel lsps).ctl, []) (es ++ [.data s .end_])) := by
    rw [absorbAll_append]
    exact absorb_settled hU (ctl_absorbAll hU es _ (ctl_new (U := U) nel lsps)) s
  have hpend : r.input.pending = .active := by
    rcases List.eq_nil_or_concat lens with rfl | ⟨lens', l, rfl⟩
    · simp [readMany] at hr
    · rw [List.concat_eq_append, readMany_append] at hr
      obtain ⟨es', -, j2, -, -⟩ := run_rel hU lens' (.new nel lsps) src [] [] (Rel.init nel lsps)
      generalize finalState (.new nel lsps) src (readMany U lens' (.new nel lsps) src) = f at hr j2
      simp only [readMany, List.getLast?_append, List.getLast?_singleton, Option.some_or, Option.some.injEq] at hr
      subst hr
      exact end_pending hU j2 hok (by simp)
  obtain ⟨-, g2⟩ := read_rel hU h2 (rfl : readWithStatus U len r.input r.src = _)
  obtain ⟨es', c1, c2, -, -, c5, c6, c7⟩ := g2 hl
  have hes : es' = [.data [] .end_] := by
    rw [hsrc'] at c1
    rcases c1.cases with he | ⟨x, he⟩
    · exfalso
      have hrem : remaining U r.input = 0 := by
        unfold remaining
        rw [h3.quick, h3.iter, List.drop_zero, yields_zero h3.queue]; rfl
      rcases c6 he with ⟨p1, -⟩ | ⟨-, p2⟩
      · exact p1 hpend
      · rw [hrem] at p2; omega
    · subst he
      generalize (readWithStatus U len r.input []).src = z at c1
      cases c1
      rfl
  obtain ⟨m, hm⟩ := c7 hes hset
  -- the longer run delivers the same
  have hrun : readMany U (lens ++ [len]) (.new nel lsps) src = readMany U lens (.new nel lsps) src ++ [readWithStatus U len r.input r.src] := by
    rw [readMany_append, hfin]; rfl
  have e1 := (run_exact hU hsrc hr hok).1
  have e2 := (run_exact hU hsrc (lens := lens ++ [len]) (r := readWithStatus U len r.input r.src) (by rw [hrun]; simp) hm).1
  rw [← e1, hrun] at e2
  have hz : (readWithStatus U len r.input r.src).out = [] := by
    simp only [delivered, List.flatMap_append, List.flatMap_cons, List.flatMap_nil, List.append_nil, hm, Ret.isOk, if_true] at e2
    have := congrArg List.length e2
    rw [List.length_append] at this
    exact List.length_eq_zero_iff.1 (by omega)
  obtain ⟨st, hst, -⟩ := c5 (by rw [hes]; simp)
  rw [hm] at hst
  injection hst with hst _
  rw [hm, hst, hz]; rfl

/-- What a write puts on the wire is the beginning of the text, all of it if the write succeeds. -/
theorem writeText_sent (w : Writer) (hb : w.buffer = []) (s : List Char) :
    ∃ p, (writeText U w s).1.sink.sent = w.sink.sent ++ p ∧ p <+: enc w.crlf s ∧ (writeText U w s).1.crlf = w.crlf ∧
      ((writeText U w s).2 = .ok → p = enc w.crlf s ∧ (writeText U w s).1.buffer = []) := by
  have he : writeText U w s = writeBuffer U { w with buffer := enc w.crlf s, state := .ground (groundAfter s) } := by
    have := prepText_eq w s
    unfold prepText at this
    unfold writeText
    rw [this, hb]; rfl
  rw [he]
  unfold writeBuffer
  simp only
  split
  · exact ⟨[], by simp [Writer.fail, Writer.reset, Sink.abandon], by simp, rfl, by simp⟩
  · unfold Sink.writeStr
    by_cases hd : w.sink.dead = true
    · rw [if_pos hd]; exact ⟨[], by simp [Writer.fail, Writer.reset, Sink.abandon], by simp, rfl, by simp⟩
    · rw [if_neg hd]
      cases hs : w.sink.script with
      | nil => exact ⟨enc w.crlf s, rfl, List.prefix_refl _, rfl, fun _ => ⟨rfl, rfl⟩⟩
      | cons e r =>
        cases e with
        | ok => exact ⟨enc w.crlf s, rfl, List.prefix_refl _, rfl, fun _ => ⟨rfl, rfl⟩⟩
        | fail m => exact ⟨(enc w.crlf s).take m, rfl, List.take_prefix _ _, rfl, by simp⟩

/-! ## Shapes of reads -/

/-- A successful read returns the length of what it has written. -/
theorem ok_length {len : Nat} {t : TextInput} {src : List Event} {m : Nat} {st : Status} (h : (readWithStatus U len t src).ret = .ok m st) :
    m = (encode (readWithStatus U len t src).out).length := by
  unfold readWithStatus at h ⊢
  by_cases hl : len < normalizationBufferSize
  · rw [if_pos hl] at h; simp at h
  · rw [if_neg hl] at h ⊢
    rcases hd : drain U (len + 1) len t with ⟨stop, out, t1⟩
    rw [hd] at h
    cases stop with
    | panic => simp at h
    | full => simp at h ⊢; exact h.1.symm
    | empty =>
      simp only at h ⊢
      by_cases hp : t1.pending ≠ .active
      · rw [if_pos hp] at h ⊢; simp at h ⊢; exact h.1.symm
      · rw [if_neg hp] at h ⊢
        rcases hev : nextEvent src with ⟨e, src'⟩
        rw [hev] at h
        cases e with
        | err => simp at h
        | data s status =>
          simp only at h ⊢
          generalize drain U (len + 1) (len - (encode out).length) _ = d at *
          obtain ⟨stop, out', t2⟩ := d
          cases stop <;> simp at h ⊢ <;> exact h.1.symm

theorem nextEvent_mem {src src' : List Event} {e : Event} (h : nextEvent src = (e, src')) :
    (e ∈ src ∨ e = eof) ∧ ∀ x ∈ src', x ∈ src := by
  cases src with
  | nil => simp [nextEvent] at h; obtain ⟨rfl, rfl⟩ := h; simp [eof]
  | cons a r => simp [nextEvent] at h; obtain ⟨rfl, rfl⟩ := h; simp; intro x hx; exact Or.inr hx

/-- A source that neither fails nor, if `quiet`, reports a push. -/
def Tame (quiet : Bool) (src : List Event) : Prop := ∀ e ∈ src, e ≠ .err ∧ (quiet = true → ∀ s, e ≠ .data s .push)

/-- On such a source, a read that does not panic succeeds. -/
theorem read_tame {quiet : Bool} {len : Nat} {t : TextInput} {src : List Event} (hl : normalizationBufferSize ≤ len) (hs : Tame quiet src)
    (ht : quiet = true → t.pending ≠ .push) (hnp : (readWithStatus U len t src).ret ≠ .panic) :
    (∃ st, (readWithStatus U len t src).ret = .ok (encode (readWithStatus U len t src).out).length st ∧ (quiet = true → st ≠ .push)) ∧
    Tame quiet (readWithStatus U len t src).src ∧ (quiet = true → (readWithStatus U len t src).input.pending ≠ .push) := by
  unfold readWithStatus at hnp ⊢
  rw [if_neg (by omega)] at hnp ⊢
  have hd1 := drain_pending (U := U) (len + 1) len t
  rcases hd : drain U (len + 1) len t with ⟨stop, out, t1⟩
  rw [hd] at hnp hd1
  simp only at hd1
  cases stop with
  | panic => simp at hnp
  | full => exact ⟨⟨.active, rfl, by simp⟩, hs, fun hq => by simpa [hd1] using ht hq⟩
  | empty =>
    simp only at hnp ⊢
    by_cases hp : t1.pending ≠ .active
    · rw [if_pos hp]
      exact ⟨⟨.active, rfl, by simp⟩, hs, by simp⟩
    · rw [if_neg hp] at hnp ⊢
      have hp : t1.pending = .active := Classical.byContradiction hp
      rcases hev : nextEvent src with ⟨e, src'⟩
      rw [hev] at hnp
      obtain ⟨hm, hsub⟩ := nextEvent_mem hev
      have hs' : Tame quiet src' := fun x hx => hs x (hsub x hx)
      have he : e ≠ .err ∧ (quiet = true → ∀ s, e ≠ .data s .push) := by
        rcases hm with hm | rfl
        · exact hs e hm
        · simp [eof]
      cases e with
      | err => simp at he
      | data s status =>
        have hst : quiet = true → status ≠ .push := fun hq e => he.2 hq s (by rw [e])
        simp only at hnp ⊢
        have hdr := drain_pending (U := U) (len + 1) (len - (encode out).length)
          (if status ≠ .active then
        { t1 with ctl := (finish (processRaw U t1.ctl s).1 (t1.queue ++ (processRaw U t1.ctl s).2).getLast? status).1
                  queue := t1.queue ++ (processRaw U t1.ctl s).2 ++ (finish (processRaw U t1.ctl s).1 (t1.queue ++ (processRaw U t1.ctl s).2).getLast? status).2 }
        else { t1 with ctl := (processRaw U t1.ctl s).1, queue := t1.queue ++ (processRaw U t1.ctl s).2 })
        generalize drain U (len + 1) (len - (encode out).length) _ = d at *
        obtain ⟨stop, out', t2⟩ := d
        have h2 : t2.pending = .active := by simp only at hdr; rw [hdr]; split <;> exact hp
        cases stop with
        | panic => simp at hnp
        | full => exact ⟨⟨.active, rfl, by simp⟩, hs', fun hq => by simpa using hst hq⟩
        | empty => exact ⟨⟨status, rfl, hst⟩, hs', fun hq => by simp only; split <;> simp [h2]⟩

theorem readMany_tame {quiet : Bool} {len : Nat} (hl : normalizationBufferSize ≤ len) : ∀ (k : Nat) (t : TextInput) (src : List Event), Tame quiet src →
    (quiet = true → t.pending ≠ .push) → (∀ r ∈ readMany U (List.replicate k len) t src, r.ret ≠ .panic) →
    ∀ r ∈ readMany U (List.replicate k len) t src, ∃ st, r.ret = .ok (encode r.out).length st ∧ (quiet = true → st ≠ .push) := by
  intro k
  induction k with
  | zero => intro t src _ _ _ r hr; simp [readMany] at hr
  | succ k ih =>
    intro t src hs ht hnp r hr
    rw [List.replicate_succ, readMany] at hnp hr
    obtain ⟨h1, h2, h3⟩ := read_tame (U := U) hl hs ht (hnp _ (by simp))
    simp only [List.mem_cons] at hr
    rcases hr with rfl | hr
    · exact h1
    · exact ih _ _ h2 h3 (fun r hr => hnp r (by simp [hr])) r hr

/-! ## What any copy does -/

/-- What a copy that has ended has done, when the reads delivered `text`: it has sent a beginning of it, and all of it
if it returns `Ok`, together with the number of bytes. -/
structure Copied (w : Writer) (n : Nat) (res : CopyResult) (text : List Char) : Prop where
  sent : ∃ p, res.writer.sink.sent = w.sink.sent ++ p ∧ p <+: enc w.crlf text ∧ (∀ m, res.ret = .ok m → p = enc w.crlf text)
  count : ∀ m, res.ret = .ok m → m = n + (encode text).length

theorem Copied.step {w w' : Writer} {n m : Nat} {res : CopyResult} {s rest : List Char} (hsent : w'.sink.sent = w.sink.sent ++ enc w.crlf s)
    (hc : w'.crlf = w.crlf) (hm : m = (encode s).length) (h : Copied w' (n + m) res rest) : Copied w n res (s ++ rest) := by
  obtain ⟨⟨p, h1, h2, h3⟩, h4⟩ := h
  rw [hc] at h2 h3
  constructor
  · refine ⟨enc w.crlf s ++ p, ?_, ?_, ?_⟩
    · rw [h1, hsent]; simp
    · rw [enc_append]; exact (List.prefix_append_right_inj _).2 h2
    · intro k hk; rw [enc_append, h3 k hk]
  · intro k hk
    rw [h4 k hk, encode_append, List.length_append, hm]; omega

theorem copied_stop {w w' : Writer} {n : Nat} {res : CopyResult} {s p : List Char} (hw : res.writer = w') (h1 : w'.sink.sent = w.sink.sent ++ p)
    (h2 : p <+: enc w.crlf s) (h3 : ∀ m, res.ret ≠ .ok m) : Copied w n res s :=
  ⟨⟨p, by rw [hw, h1], h2, fun m hm => absurd hm (h3 m)⟩, fun m hm => absurd hm (h3 m)⟩

theorem enc_nil (b : Bool) : enc b [] = [] := by cases b <;> simp [enc, toCrlf]

theorem copied_nil {w : Writer} {n : Nat} {res : CopyResult} (hw : res.writer = w) (h : ∀ m, res.ret = .ok m → m = n) (s : List Char)
    (hs : (∃ m, res.ret = .ok m) → s = []) : Copied w n res s := by
  refine ⟨⟨[], by rw [hw]; simp, List.nil_prefix, ?_⟩, ?_⟩
  · intro m hm; rw [hs ⟨m, hm⟩, enc_nil]
  · intro m hm; rw [h m hm, hs ⟨m, hm⟩]; simp [encode]

/-- `copy_text` on any source and any sink. -/
theorem copy_any (len : Nat) : ∀ (k : Nat) (t : TextInput) (src : List Event) (w : Writer) (n : Nat) (res : CopyResult), w.buffer = [] →
    copyText U len k t src w n = some res →
    ∃ j, (res.input, res.src) = finalState t src (readMany U (List.replicate j len) t src) ∧
      Copied w n res (delivered (readMany U (List.replicate j len) t src)) := by
  intro k
  induction k with
  | zero => intro t src w n res _ h; simp [copyText] at h
  | succ k ih =>
    intro t src w n res hb h
    rw [copyText] at h
    generalize hr : readWithStatus U len t src = r at h
    have hgo : ∀ j, readMany U (List.replicate (j + 1) len) t src = r :: readMany U (List.replicate j len) r.input r.src := by
      intro j; rw [List.replicate_succ, readMany]; simp only [hr]
    have hfin : ∀ j, finalState t src (readMany U (List.replicate (j + 1) len) t src) = finalState r.input r.src (readMany U (List.replicate j len) r.input r.src) := by
      intro j
      rw [hgo]
      unfold finalState
      rw [List.getLast?_cons]
      cases (readMany U (List.replicate j len) r.input r.src).getLast? <;> rfl
    have h1fin : finalState t src (readMany U (List.replicate 1 len) t src) = (r.input, r.src) := by rw [hfin]; simp [readMany, finalState]
    have h1del : delivered (readMany U (List.replicate 1 len) t src) = if r.ret.isOk then r.out else [] := by
      rw [hgo, delivered_cons]; simp [readMany, delivered]
    have hlen : ∀ m st, r.ret = .ok m st → m = (encode r.out).length := by
      intro m st he
      have := ok_length (U := U) (len := len) (t := t) (src := src) (m := m) (st := st) (by rw [hr]; exact he)
      rw [hr] at this; exact this
    obtain ⟨p, s1, s2, s3, s4⟩ := writeText_sent (U := U) w hb r.out
    have hstop : ∀ ret, (∀ m, ret ≠ .ok m) → res = { ret := ret, input := r.input, src := r.src, writer := w } →
        ∃ j, (res.input, res.src) = finalState t src (readMany U (List.replicate j len) t src) ∧
          Copied w n res (delivered (readMany U (List.replicate j len) t src)) := by
      rintro ret hn rfl
      refine ⟨1, h1fin.symm, copied_nil (w := w) (res := { ret := ret, input := r.input, src := r.src, writer := w }) rfl ?_ _ ?_⟩
      · exact fun m hm => absurd hm (hn m)
      · exact fun ⟨m, hm⟩ => absurd hm (hn m)
    cases hret : r.ret with
    | panic => simp [hret, stdRet] at h; exact hstop .panic (by simp) h.symm
    | invalidInput => simp [hret, stdRet] at h; exact hstop (.readError .invalidInput) (by simp) h.symm
    | sourceError => simp [hret, stdRet] at h; exact hstop (.readError .sourceError) (by simp) h.symm
    | ok m st =>
      have hm := hlen m st hret
      have hok : r.ret.isOk = true := by rw [hret]; rfl
      have hdel : ∀ j, delivered (readMany U (List.replicate (j + 1) len) t src) = r.out ++ delivered (readMany U (List.replicate j len) r.input r.src) := by
        intro j; rw [hgo, delivered_cons, hok, if_pos rfl]
      cases m with
      | zero =>
        have hz : r.out = [] := by
          have := length_le_encode r.out
          exact List.length_eq_zero_iff.1 (by omega)
        by_cases hst : st = .end_
        · simp [hret, stdRet, hst] at h
          refine ⟨1, by rw [h1fin, ← h], copied_nil (by rw [← h]) (fun m hm => ?_) _ (fun _ => by rw [h1del, hok, hz]; rfl)⟩
          rw [← h] at hm; simpa using hm.symm
        · simp [hret, stdRet, hst] at h
          obtain ⟨j, h1, h2⟩ := ih _ _ _ _ _ hb h
          exact ⟨j + 1, by rw [hfin, h1], by rw [hdel, hz]; exact h2⟩
      | succ m =>
        have hs : stdRet r.ret = .ok (m + 1) := by rw [hret]; simp [stdRet]
        rw [hs] at h
        simp only at h
        rcases hw : writeText U w r.out with ⟨w', o⟩
        rw [hw] at h s1 s3 s4
        cases o with
        | ok =>
          simp only at h s1 s3 s4
          obtain ⟨q1, q2⟩ := s4 trivial
          obtain ⟨j, h1, h2⟩ := ih _ _ _ _ _ q2 h
          refine ⟨j + 1, by rw [hfin, h1], ?_⟩
          rw [hdel]
          exact h2.step (by rw [s1, q1]) s3 hm
        | err =>
          simp only [Option.some.injEq] at h
          refine ⟨1, by rw [h1fin, ← h], ?_⟩
          rw [h1del, hok, if_pos rfl]
          exact copied_stop (by rw [← h]) s1 s2 (by rw [← h]; simp)
        | panic =>
          simp only [Option.some.injEq] at h
          refine ⟨1, by rw [h1fin, ← h], ?_⟩
          rw [h1del, hok, if_pos rfl]
          exact copied_stop (by rw [← h]) s1 s2 (by rw [← h]; simp)

theorem flush_sent (w : Writer) : (flush w).1.sink.sent = w.sink.sent ∧ (flush w).1.crlf = w.crlf ∧ (flush w).1.buffer = w.buffer := by
  have hs : w.sink.flush.1.sent = w.sink.sent := by
    unfold Sink.flush
    (repeat' split) <;> rfl
  unfold flush
  split
  · simp [Writer.fail, Writer.reset, Sink.abandon]
  · exact ⟨hs, rfl, rfl⟩
  · exact ⟨rfl, rfl, rfl⟩

/-- `copy_text_using_status` on any source and any sink. -/
theorem copyStatus_any (len : Nat) : ∀ (k : Nat) (t : TextInput) (src : List Event) (w : Writer) (n : Nat) (res : CopyResult), w.buffer = [] →
    copyTextUsingStatus U len k t src w n = some res →
    ∃ j, (res.input, res.src) = finalState t src (readMany U (List.replicate j len) t src) ∧
      Copied w n res (delivered (readMany U (List.replicate j len) t src)) := by
  intro k
  induction k with
  | zero => intro t src w n res _ h; simp [copyTextUsingStatus] at h
  | succ k ih =>
    intro t src w n res hb h
    rw [copyTextUsingStatus] at h
    generalize hr : readWithStatus U len t src = r at h
    have hgo : ∀ j, readMany U (List.replicate (j + 1) len) t src = r :: readMany U (List.replicate j len) r.input r.src := by
      intro j; rw [List.replicate_succ, readMany]; simp only [hr]
    have hfin : ∀ j, finalState t src (readMany U (List.replicate (j + 1) len) t src) = finalState r.input r.src (readMany U (List.replicate j len) r.input r.src) := by
      intro j
      rw [hgo]
      unfold finalState
      rw [List.getLast?_cons]
      cases (readMany U (List.replicate j len) r.input r.src).getLast? <;> rfl
    have h1fin : finalState t src (readMany U (List.replicate 1 len) t src) = (r.input, r.src) := by rw [hfin]; simp [readMany, finalState]
    have h1del : delivered (readMany U (List.replicate 1 len) t src) = if r.ret.isOk then r.out else [] := by
      rw [hgo, delivered_cons]; simp [readMany, delivered]
    have hlen : ∀ m st, r.ret = .ok m st → m = (encode r.out).length := by
      intro m st he
      have := ok_length (U := U) (len := len) (t := t) (src := src) (m := m) (st := st) (by rw [hr]; exact he)
      rw [hr] at this; exact this
    obtain ⟨p, s1, s2, s3, s4⟩ := writeText_sent (U := U) w hb r.out
    have hstop : ∀ ret, (∀ m, ret ≠ .ok m) → res = { ret := ret, input := r.input, src := r.src, writer := w } →
        ∃ j, (res.input, res.src) = finalState t src (readMany U (List.replicate j len) t src) ∧
          Copied w n res (delivered (readMany U (List.replicate j len) t src)) := by
      rintro ret hn rfl
      refine ⟨1, h1fin.symm, copied_nil (w := w) (res := { ret := ret, input := r.input, src := r.src, writer := w }) rfl ?_ _ ?_⟩
      · exact fun m hm => absurd hm (hn m)
      · exact fun ⟨m, hm⟩ => absurd hm (hn m)
    cases hret : r.ret with
    | panic => simp [hret] at h; exact hstop .panic (by simp) h.symm
    | invalidInput => simp [hret] at h; exact hstop (.readError .invalidInput) (by simp) h.symm
    | sourceError => simp [hret] at h; exact hstop (.readError .sourceError) (by simp) h.symm
    | ok m st =>
      have hm := hlen m st hret
      have hok : r.ret.isOk = true := by rw [hret]; rfl
      have hdel : ∀ j, delivered (readMany U (List.replicate (j + 1) len) t src) = r.out ++ delivered (readMany U (List.replicate j len) r.input r.src) := by
        intro j; rw [hgo, delivered_cons, hok, if_pos rfl]
      rw [hret] at h
      simp only at h
      rcases hw : writeText U w r.out with ⟨w', o⟩
      rw [hw] at h s1 s3 s4
      cases o with
      | ok =>
        simp only at h s1 s3 s4
        obtain ⟨q1, q2⟩ := s4 trivial
        cases st with
        | end_ =>
          simp only [Option.some.injEq] at h
          refine ⟨1, by rw [h1fin, ← h], ?_⟩
          rw [h1del, hok, if_pos rfl]
          refine ⟨⟨p, by rw [← h]; exact s1, s2, fun _ _ => q1⟩, ?_⟩
          intro k hk
          rw [← h] at hk
          simp only [CopyRet.ok.injEq] at hk
          omega
        | push =>
          simp only at h
          obtain ⟨f1, f2, f3⟩ := flush_sent w'
          rcases hf : flush w' with ⟨w'', o⟩
          rw [hf] at h f1 f2 f3
          simp only at f1 f2 f3
          have hbad : res = { ret := .writeError, input := r.input, src := r.src, writer := w'' } →
              ∃ j, (res.input, res.src) = finalState t src (readMany U (List.replicate j len) t src) ∧
                Copied w n res (delivered (readMany U (List.replicate j len) t src)) := by
            rintro rfl
            refine ⟨1, by rw [h1fin], ?_⟩
            rw [h1del, hok, if_pos rfl]
            exact copied_stop rfl (by rw [f1]; exact s1) s2 (by simp)
          cases o with
          | ok =>
            simp only at h
            obtain ⟨j, h1, h2⟩ := ih _ _ _ _ _ (f3.trans q2) h
            refine ⟨j + 1, by rw [hfin, h1], ?_⟩
            rw [hdel]
            exact h2.step (by rw [f1, s1, q1]) (f2.trans s3) hm
          | err => simp only [Option.some.injEq] at h; exact hbad h.symm
          | panic => simp only [Option.some.injEq] at h; exact hbad h.symm
        | active =>
          simp only at h
          obtain ⟨j, h1, h2⟩ := ih _ _ _ _ _ q2 h
          refine ⟨j + 1, by rw [hfin, h1], ?_⟩
          rw [hdel]
          exact h2.step (by rw [s1, q1]) s3 hm
      | err =>
        simp only [Option.some.injEq] at h
        refine ⟨1, by rw [h1fin, ← h], ?_⟩
        rw [h1del, hok, if_pos rfl]
        exact copied_stop (by rw [← h]) s1 s2 (by rw [← h]; simp)
      | panic =>
        simp only [Option.some.injEq] at h
        refine ⟨1, by rw [h1fin, ← h], ?_⟩
        rw [h1del, hok, if_pos rfl]
        exact copied_stop (by rw [← h]) s1 s2 (by rw [← h]; simp)

/-! ## More fuel does not change the result -/

theorem copyText_mono {len : Nat} : ∀ {k : Nat} {t : TextInput} {src : List Event} {w : Writer} {n : Nat} {res : CopyResult},
    copyText U len k t src w n = some res → ∀ k', k ≤ k' → copyText U len k' t src w n = some res := by
  intro k
  induction k with
  | zero => intro t src w n res h; simp [copyText] at h
  | succ k ih =>
    intro t src w n res h k' hk
    obtain ⟨k'', rfl⟩ : ∃ k'', k' = k'' + 1 := ⟨k' - 1, by omega⟩
    rw [copyText] at h ⊢
    generalize readWithStatus U len t src = r at h ⊢
    cases hs : stdRet r.ret with
    | ok m =>
      rw [hs] at h
      cases m with
      | zero => exact h
      | succ m =>
        simp only at h ⊢
        generalize writeText U w r.out = x at h ⊢
        obtain ⟨w', o⟩ := x
        cases o with
        | ok => exact ih h _ (by omega)
        | err => exact h
        | panic => exact h
    | interrupted => rw [hs] at h; exact ih h _ (by omega)
    | _ => rw [hs] at h; exact h

theorem copyStatus_mono {len : Nat} : ∀ {k : Nat} {t : TextInput} {src : List Event} {w : Writer} {n : Nat} {res : CopyResult},
    copyTextUsingStatus U len k t src w n = some res → ∀ k', k ≤ k' → copyTextUsingStatus U len k' t src w n = some res := by
  intro k
  induction k with
  | zero => intro t src w n res h; simp [copyTextUsingStatus] at h
  | succ k ih =>
    intro t src w n res h k' hk
    obtain ⟨k'', rfl⟩ : ∃ k'', k' = k'' + 1 := ⟨k' - 1, by omega⟩
    rw [copyTextUsingStatus] at h ⊢
    generalize readWithStatus U len t src = r at h ⊢
    cases hs : r.ret with
    | ok m st =>
      rw [hs] at h
      simp only at h ⊢
      generalize writeText U w r.out = x at h ⊢
      obtain ⟨w', o⟩ := x
      cases o with
      | ok =>
        cases st with
        | end_ => exact h
        | active => exact ih h _ (by omega)
        | push =>
          simp only at h ⊢
          generalize flush w' = x at h ⊢
          obtain ⟨w'', o⟩ := x
          cases o with
          | ok => exact ih h _ (by omega)
          | err => exact h
          | panic => exact h
      | err => exact h
      | panic => exact h
    | _ => rw [hs] at h; exact h

end Verif
