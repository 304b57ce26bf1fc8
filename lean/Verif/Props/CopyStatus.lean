import Verif.LayeredReader
import Verif.Props.Copy

/-!
# C44: `copy_text_using_status` and pushes

Exactly when `copy_text_using_status` copies a source that reports pushes, and what it has sent when it does not.
-/

namespace Verif
open Ucd
variable {U : Ucd}

/-! ## Specification -/

/-- No read that comes next after one that reports a push delivers text beginning with a scalar that may not begin a text.
`after` says whether a push comes before the first read. -/
def Spec.startsWell (U : Ucd) : Bool → List ReadResult → Bool
  | _, [] => true
  | after, r :: rs =>
    (!after || (r.out.head?.map (isStart U)).getD true) &&
      Spec.startsWell U (match r.ret with | .ok _ .push => true | _ => false) rs

/-- The scalars of the source. -/
def Spec.content : List Event → List Char
  | [] => []
  | .data s _ :: es => s ++ Spec.content es
  | .err :: es => Spec.content es

/-- The source reports a push only at the beginning or where its content has just ended a line. -/
def Spec.PushesAtLines (src : List Event) : Prop :=
  ∀ a s b, src = a ++ .data s .push :: b → ∀ c ∈ (Spec.content a ++ s).getLast?, c = '\n'

/-! ## Writing after a flush -/

theorem flush_willing {w : Writer} (hw : Willing w) (h : w.state ≠ .ground .zwjOrPrepend) :
    flush w = ({ w with expectStarter := true }, .ok) := by
  obtain ⟨g, hg⟩ := hw.state
  have hs : w.sink.flush = (w.sink, true) := by simp [Sink.flush, hw.alive, hw.reliable]
  unfold flush
  cases g with
  | zwjOrPrepend => exact absurd hg h
  | newline => rw [hg]; simp only [hs]; rfl
  | other => rw [hg]; simp only [hs]; rfl

theorem writeText_bad (hU : TextLaws U) {w : Writer} (hw : Willing w) {s : List Char} {c : Char} (he : w.expectStarter = true)
    (hc : s.head? = some c) (hs : isStart U c = false) :
    ∃ w', writeText U w s = (w', .err) ∧ w'.sink.sent = w.sink.sent ∧ w'.sink.dead = true := by
  have hb := hw.buffer
  have h1 : writeText U w s = writeBuffer U { w with buffer := enc w.crlf s, state := .ground (groundAfter s) } := by
    have := prepText_eq w s
    unfold prepText at this
    unfold writeText
    rw [this, hb]; rfl
  have hnl : c ≠ '\n' := by
    rintro rfl
    have := start_nl hU
    rw [hs] at this; exact absurd this (by simp)
  have h2 : (enc w.crlf s).head? = some c := by
    cases s with
    | nil => simp at hc
    | cons d s =>
      simp only [List.head?_cons, Option.some.injEq] at hc
      subst hc
      unfold enc
      split
      · simp [toCrlf, hnl]
      · rfl
  rw [h1]
  unfold writeBuffer
  simp only [h2, he, Option.map_some, Option.getD_some, hs, Bool.not_false, Bool.and_self, if_true]
  exact ⟨_, rfl, rfl, rfl⟩

theorem Wrote.expect {w w' : Writer} {b : Bool} {s : List Char} (h : Wrote { w with expectStarter := b } w' s) : Wrote w w' s :=
  ⟨h.sent, h.buffer, h.ground, h.newline, h.crlf⟩

/-- `copy_text_using_status` over reads that succeed, up to the first that reports the end. -/
theorem copyStatus_pushes (hU : TextLaws U) (len : Nat) : ∀ (k : Nat) (t : TextInput) (src : List Event) (w : Writer) (n : Nat), Willing w →
    (∀ r ∈ readMany U (List.replicate k len) t src, ∃ st, r.ret = .ok (encode r.out).length st) →
    (∀ r ∈ readMany U (List.replicate k len) t src, ∀ m, r.ret = .ok m .push → groundAfter r.out ≠ .zwjOrPrepend) →
    (∃ r ∈ readMany U (List.replicate k len) t src, ∃ m, r.ret = .ok m .end_) →
    ∃ j r m, (readMany U (List.replicate j len) t src).getLast? = some r ∧ r.ret = .ok m .end_ ∧
      (∀ r' ∈ (readMany U (List.replicate j len) t src).dropLast, ∀ m, r'.ret ≠ .ok m .end_) ∧
      (Spec.startsWell U w.expectStarter (readMany U (List.replicate j len) t src) = true → ∃ w', copyTextUsingStatus U len k t src w n =
        some { ret := .ok (n + (encode (delivered (readMany U (List.replicate j len) t src))).length), input := r.input, src := r.src, writer := w' } ∧
        Wrote w w' (delivered (readMany U (List.replicate j len) t src))) ∧
      (Spec.startsWell U w.expectStarter (readMany U (List.replicate j len) t src) = false →
        ∃ pre b post res, readMany U (List.replicate j len) t src = pre ++ b :: post ∧
          Spec.startsWell U w.expectStarter pre = true ∧ Spec.startsWell U w.expectStarter (pre ++ [b]) = false ∧
          copyTextUsingStatus U len k t src w n = some res ∧ res.ret = .writeError ∧
          res.writer.sink.sent = w.sink.sent ++ enc w.crlf (delivered pre) ∧ res.writer.sink.dead = true) := by
  intro k
  induction k with
  | zero => intro t src w n _ _ _ ⟨r, hr, _⟩; simp [readMany] at hr
  | succ k ih =>
    intro t src w n hw hok hpush hend
    rw [List.replicate_succ, readMany] at hok hend hpush
    generalize hr : readWithStatus U len t src = r at hok hend hpush
    obtain ⟨st, hret⟩ := hok r (by simp)
    have hok' : ∀ r' ∈ readMany U (List.replicate k len) r.input r.src, ∃ st, r'.ret = .ok (encode r'.out).length st :=
      fun r' hr' => hok r' (by simp [hr'])
    have hpush' : ∀ r' ∈ readMany U (List.replicate k len) r.input r.src, ∀ m, r'.ret = .ok m .push → groundAfter r'.out ≠ .zwjOrPrepend :=
      fun r' hr' => hpush r' (by simp [hr'])
    have hgo : ∀ j, readMany U (List.replicate (j + 1) len) t src = r :: readMany U (List.replicate j len) r.input r.src := by
      intro j; rw [List.replicate_succ, readMany]; simp only [hr]
    have hisok : r.ret.isOk = true := by rw [hret]; rfl
    have hdel : ∀ j, delivered (readMany U (List.replicate (j + 1) len) t src) = r.out ++ delivered (readMany U (List.replicate j len) r.input r.src) := by
      intro j; rw [hgo, delivered_cons, hisok, if_pos rfl]
    have hend' : st ≠ .end_ → ∃ r' ∈ readMany U (List.replicate k len) r.input r.src, ∃ m, r'.ret = .ok m .end_ := by
      intro hne
      obtain ⟨r', h1, m, h2⟩ := hend
      simp only [List.mem_cons] at h1
      rcases h1 with rfl | h1
      · rw [hret] at h2; injection h2 with _ h2; exact absurd h2 hne
      · exact ⟨r', h1, m, h2⟩
    have hlast : ∀ j, st ≠ .end_ → (∀ r' ∈ (readMany U (List.replicate j len) r.input r.src).dropLast, ∀ m, r'.ret ≠ .ok m .end_) →
        ∀ r' ∈ (readMany U (List.replicate (j + 1) len) t src).dropLast, ∀ m, r'.ret ≠ .ok m .end_ := by
      intro j hne h r' hr' m
      rw [hgo] at hr'
      cases hq : readMany U (List.replicate j len) r.input r.src with
      | nil => rw [hq] at hr'; simp at hr'
      | cons q qs =>
        rw [hq, List.dropLast_cons_of_ne_nil (by simp)] at hr'
        rw [hq] at h
        simp only [List.mem_cons] at hr'
        rcases hr' with rfl | hr'
        · rw [hret]; intro h'; injection h' with _ h'; exact hne h'
        · exact h r' hr' m
    by_cases hgood : (!w.expectStarter || (r.out.head?.map (isStart U)).getD true) = true
    · -- the write succeeds
      have hwr : writeText U w r.out = _ := writeText_good hU hw (s := r.out) (by
        intro he c hc
        rw [he] at hgood
        rw [Option.mem_def] at hc
        simpa [hc] using hgood)
      have hstep : ∀ rs, Spec.startsWell U w.expectStarter (r :: rs) = Spec.startsWell U (match r.ret with | .ok _ .push => true | _ => false) rs := by
        intro rs
        conv => lhs; unfold Spec.startsWell
        rw [hgood, Bool.true_and]
      -- what follows is copied by `w1`
      have next : ∀ w1 : Writer, st ≠ .end_ → Willing w1 → w1.expectStarter = (match r.ret with | .ok _ .push => true | _ => false) →
          w1.sink.sent = w.sink.sent ++ enc w.crlf r.out → w1.crlf = w.crlf →
          (∀ w' rest, Wrote w1 w' rest → Wrote w w' (r.out ++ rest)) →
          copyTextUsingStatus U len (k + 1) t src w n = copyTextUsingStatus U len k r.input r.src w1 (n + (encode r.out).length) →
          ∃ j r m, (readMany U (List.replicate j len) t src).getLast? = some r ∧ r.ret = .ok m .end_ ∧
            (∀ r' ∈ (readMany U (List.replicate j len) t src).dropLast, ∀ m, r'.ret ≠ .ok m .end_) ∧
            (Spec.startsWell U w.expectStarter (readMany U (List.replicate j len) t src) = true → ∃ w', copyTextUsingStatus U len (k + 1) t src w n =
              some { ret := .ok (n + (encode (delivered (readMany U (List.replicate j len) t src))).length), input := r.input, src := r.src, writer := w' } ∧
              Wrote w w' (delivered (readMany U (List.replicate j len) t src))) ∧
            (Spec.startsWell U w.expectStarter (readMany U (List.replicate j len) t src) = false →
              ∃ pre b post res, readMany U (List.replicate j len) t src = pre ++ b :: post ∧
                Spec.startsWell U w.expectStarter pre = true ∧ Spec.startsWell U w.expectStarter (pre ++ [b]) = false ∧
                copyTextUsingStatus U len (k + 1) t src w n = some res ∧ res.ret = .writeError ∧
                res.writer.sink.sent = w.sink.sent ++ enc w.crlf (delivered pre) ∧ res.writer.sink.dead = true) := by
        intro w1 hne hw1 hx hsent hcr hwrote hcopy
        obtain ⟨j, r', m, a1, a2, a3, a4, a5⟩ := ih r.input r.src w1 (n + (encode r.out).length) hw1 hok' hpush' (hend' hne)
        refine ⟨j + 1, r', m, ?_, a2, hlast j hne a3, ?_, ?_⟩
        · rw [hgo, List.getLast?_cons, a1]; rfl
        · intro h
          rw [hgo, hstep, ← hx] at h
          obtain ⟨w', b1, b2⟩ := a4 h
          refine ⟨w', ?_, ?_⟩
          · rw [hcopy, b1, hdel, encode_append, List.length_append, Nat.add_assoc]
          · rw [hdel]; exact hwrote _ _ b2
        · intro h
          rw [hgo, hstep, ← hx] at h
          obtain ⟨pre, b, post, res, b1, b2, b3, b4, b5, b6, b7⟩ := a5 h
          refine ⟨r :: pre, b, post, res, by rw [hgo, b1]; rfl, by rw [hstep, ← hx]; exact b2, by rw [List.cons_append, hstep, ← hx]; exact b3,
            by rw [hcopy, b4], b5, ?_, b7⟩
          rw [b6, hsent, hcr, delivered_cons, hisok, if_pos rfl, enc_append, List.append_assoc]
      cases st with
      | end_ =>
        refine ⟨1, r, _, by rw [hgo]; simp [readMany], hret, by rw [hgo]; simp [readMany], ?_, ?_⟩
        · intro _
          refine ⟨{ w with expectStarter := false, state := .ground (groundAfter r.out), sink := { w.sink with sent := w.sink.sent ++ enc w.crlf r.out } }, ?_, ?_⟩
          · rw [copyTextUsingStatus]
            simp only [hr, hret, hwr]
            rw [hdel]; simp [readMany, delivered]
          · rw [hdel]; exact (Wrote.refl (willing_step hw r.out)).step hw
        · intro h
          rw [hgo, hstep] at h
          simp [readMany, Spec.startsWell] at h
      | active =>
        exact next _ (by simp) (willing_step hw r.out) (by rw [hret]) rfl rfl (fun _ _ h => h.step hw) (by
          conv => lhs; rw [copyTextUsingStatus]
          simp only [hr, hret, hwr])
      | push =>
        have hfl := flush_willing (willing_step hw r.out) (by simpa using hpush r (by simp) _ hret)
        refine next { w with expectStarter := true, state := .ground (groundAfter r.out), sink := { w.sink with sent := w.sink.sent ++ enc w.crlf r.out } }
          (by simp) ⟨⟨_, rfl⟩, hw.buffer, hw.alive, hw.reliable⟩ (by rw [hret]) rfl rfl (fun _ _ h => ?_) ?_
        · exact Wrote.step hw ⟨h.sent, h.buffer, h.ground, h.newline, h.crlf⟩
        · conv => lhs; rw [copyTextUsingStatus]
          simp only [hr, hret, hwr, hfl]
    · -- the write fails
      have he : w.expectStarter = true := by
        cases h : w.expectStarter with
        | true => rfl
        | false => simp [h] at hgood
      cases hc : r.out.head? with
      | none => simp [hc] at hgood
      | some c =>
        have hs : isStart U c = false := by
          simpa [he, hc] using hgood
        obtain ⟨w', b1, b2, b3⟩ := writeText_bad hU hw he hc hs
        have hcopy : copyTextUsingStatus U len (k + 1) t src w n = some { ret := .writeError, input := r.input, src := r.src, writer := w' } := by
          rw [copyTextUsingStatus]
          simp only [hr, hret, b1]
        have hbad : ∀ rs, Spec.startsWell U w.expectStarter (r :: rs) = false := by
          intro rs
          unfold Spec.startsWell
          rw [Bool.not_eq_true] at hgood
          rw [hgood, Bool.false_and]
        -- the reads up to the first that reports the end
        have hfirst : ∃ j r' m, (readMany U (List.replicate (j + 1) len) t src).getLast? = some r' ∧ r'.ret = .ok m .end_ ∧
            ∀ r'' ∈ (readMany U (List.replicate (j + 1) len) t src).dropLast, ∀ m, r''.ret ≠ .ok m .end_ := by
          by_cases hne : st = .end_
          · exact ⟨0, r, _, by rw [hgo]; simp [readMany], by rw [hret, hne], by rw [hgo]; simp [readMany]⟩
          · have hw0 : Willing (Writer.new goodSink) := ⟨⟨_, rfl⟩, rfl, rfl, rfl⟩
            obtain ⟨j, r', m, a1, a2, a3, -⟩ := ih r.input r.src _ 0 hw0 hok' hpush' (hend' hne)
            exact ⟨j, r', m, by rw [hgo, List.getLast?_cons, a1]; rfl, a2, hlast j hne a3⟩
        obtain ⟨j, r', m, a1, a2, a3⟩ := hfirst
        refine ⟨j + 1, r', m, a1, a2, a3, ?_, ?_⟩
        · intro h; rw [hgo, hbad] at h; simp at h
        · intro _
          refine ⟨[], r, _, _, by rw [hgo]; rfl, rfl, hbad [], hcopy, rfl, ?_, b3⟩
          rw [b2]; simp [delivered, enc_nil]

theorem readMany_prefix : ∀ (k len : Nat) (t : TextInput) (src : List Event) (pre : List ReadResult) (r : ReadResult) (post : List ReadResult),
    readMany U (List.replicate k len) t src = pre ++ r :: post →
    readMany U (List.replicate (pre.length + 1) len) t src = pre ++ [r] ∧
      post = readMany U (List.replicate (k - (pre.length + 1)) len) r.input r.src := by
  intro k
  induction k with
  | zero => intro len t src pre r post h; simp [readMany] at h
  | succ k ih =>
    intro len t src pre r post h
    rw [List.replicate_succ, readMany] at h
    cases pre with
    | nil =>
      simp only [List.nil_append, List.cons.injEq] at h
      obtain ⟨h1, h2⟩ := h
      refine ⟨by simp [readMany, h1], ?_⟩
      rw [← h2, h1]; simp
    | cons p pre =>
      simp only [List.cons_append, List.cons.injEq] at h
      obtain ⟨h1, h2⟩ := h
      obtain ⟨i1, i2⟩ := ih _ _ _ _ _ _ h2
      refine ⟨?_, ?_⟩
      · rw [List.length_cons, List.replicate_succ, readMany, h1]
        rw [h1] at i1
        rw [i1]; rfl
      · rw [i2]; congr 1; simp

/-- A read that reports a push does not end after a joiner or a prepended mark. -/
theorem push_ground (hU : TextLaws U) {nel lsps : Bool} {src : List Event} {k len : Nat} {r : ReadResult}
    (hr : r ∈ readMany U (List.replicate k len) (.new nel lsps) src) {m : Nat} (hret : r.ret = .ok m .push) :
    groundAfter r.out ≠ .zwjOrPrepend := by
  obtain ⟨pre, post, h⟩ := List.append_of_mem hr
  have h1 := (readMany_prefix _ _ _ _ _ _ _ h).1
  obtain ⟨es, s, -, h2, h3⟩ := run_last hU (Rel.init nel lsps) (lens := List.replicate (pre.length + 1) len) (src := src) (r := r)
    (by rw [h1]; simp) hret (by simp)
  obtain ⟨⟨segs, i1, i2, i3⟩, -, -⟩ := h2.inv
  rw [h3.iter, h3.quick] at i2
  simp only [List.nil_append, List.take_zero, List.append_nil] at i2
  have hl := last_segs hU i3
  rw [← i2, h1] at hl
  unfold groundAfter
  cases hq : r.out.getLast? with
  | none => simp
  | some c =>
    have hw : (written (pre ++ [r])).getLast? = some c := by simp [written, List.getLast?_append, hq]
    rw [hw] at hl
    have hb : isBoundary c = true := by
      rcases List.eq_nil_or_concat segs with rfl | ⟨segs, s, rfl⟩
      · simp at hl
      · obtain ⟨x, b, rfl, hb⟩ := i3 s (by simp)
        simp [List.concat_eq_append, List.getLast?_append] at hl
        rw [hl]; exact hb
    rcases isBoundary_iff.1 hb with rfl | rfl
    · simp
    · simp [groundOf, show isEnd CGJ = true by decide, CGJ]

/-- C44, exactly when `copy_text_using_status` copies: from a fresh reader, on a source that ends without failing, whatever pushes
it reports, to a writer whose sink works.  Let the reads be those up to the first that reports the end.  If no read next
after one that reports a push delivers text that begins with a scalar not allowed at the beginning of a text, everything is
copied and the length returned.  Otherwise the copy fails, after having sent exactly the text of the reads before the first
such one. -/
theorem c44_using_status_exact (nel lsps : Bool) (src : List Event) (hsrc : Ending src) (len : Nat)
    (hl : normalizationBufferSize ≤ len) (w : Writer) (hw : Ready w) (lens : List Nat) (hc : Completes ucd15 nel lsps src lens) :
    ∃ k last m res, let reads := readMany ucd15 (List.replicate k len) (.new nel lsps) src
      reads.getLast? = some last ∧ last.ret = .ok m .end_ ∧ (∀ r ∈ reads.dropLast, ∀ m, r.ret ≠ .ok m .end_) ∧
      (∃ n, ∀ fuel, n ≤ fuel → copyTextUsingStatus ucd15 len fuel (.new nel lsps) src w 0 = some res) ∧
      (Spec.startsWell ucd15 false reads = true →
        res.ret = .ok (encode (output ucd15 nel lsps src lens)).length ∧
        res.writer.sink.sent = w.sink.sent ++ wire w.crlf (output ucd15 nel lsps src lens) ∧
        (w.state = .ground .newline → res.writer.state = .ground .newline)) ∧
      (Spec.startsWell ucd15 false reads = false →
        ∃ pre bad post, reads = pre ++ bad :: post ∧ Spec.startsWell ucd15 false pre = true ∧ Spec.startsWell ucd15 false (pre ++ [bad]) = false ∧
          res.ret = .writeError ∧ res.writer.sink.sent = w.sink.sent ++ wire w.crlf (delivered pre) ∧ res.writer.sink.dead = true) := by
  obtain ⟨k, r, hr, n, hn⟩ := constant_reach nel lsps src len hl
  have htame : Tame false src := fun e he => ⟨hsrc.no_err e he, by simp⟩
  obtain ⟨-, -, -, -, hnp⟩ := run_rel textLaws15 (List.replicate k len) (.new nel lsps) src [] [] (Rel.init nel lsps)
  have hok := readMany_tame (U := ucd15) hl k (.new nel lsps) src htame (by simp) hnp
  obtain ⟨j, r', m, a1, a2, a3, a4, a5⟩ := copyStatus_pushes textLaws15 len k (.new nel lsps) src w 0 hw.willing
    (fun r hr => by obtain ⟨st, h, -⟩ := hok r hr; exact ⟨st, h⟩)
    (fun r hr m hm => push_ground textLaws15 hr hm)
    ⟨r, List.mem_of_getLast? hr, n, hn⟩
  -- what the writer expects at the beginning does not matter: the first read begins well
  have hexp : ∀ i, Spec.startsWell ucd15 w.expectStarter (readMany ucd15 (List.replicate i len) (.new nel lsps) src) =
      Spec.startsWell ucd15 false (readMany ucd15 (List.replicate i len) (.new nel lsps) src) := by
    intro i
    cases i with
    | zero => rfl
    | succ i =>
      rw [List.replicate_succ, readMany]
      unfold Spec.startsWell
      have hv := (run_valid textLaws15 nel lsps src [len]).2
      have : (Option.map (isStart ucd15) (readWithStatus ucd15 len (.new nel lsps) src).out.head?).getD true = true := by
        cases hq : (readWithStatus ucd15 len (.new nel lsps) src).out.head? with
        | none => rfl
        | some c => exact hv c (by simp [readMany, written, hq])
      simp only [this, Bool.or_true]
  have hT : delivered (readMany ucd15 (List.replicate j len) (.new nel lsps) src) = output ucd15 nel lsps src lens :=
    c16_buffer_independent nel lsps src hsrc _ _ ⟨r', m, a1, a2⟩ hc
  have hend := (run_end textLaws15 a1 a2).1
  rw [← run_delivered textLaws15 nel lsps hsrc.no_err] at hend
  rw [hexp] at a4 a5
  rw [hT] at a4 hend
  cases hb : Spec.startsWell ucd15 false (readMany ucd15 (List.replicate j len) (.new nel lsps) src) with
  | true =>
    obtain ⟨w', b1, b2⟩ := a4 hb
    refine ⟨j, r', m, _, a1, a2, a3, ⟨k, fun fuel hf => copyStatus_mono b1 fuel hf⟩, fun _ => ⟨by rw [Nat.zero_add], ?_, ?_⟩, fun h => by rw [hb] at h; simp at h⟩
    · show w'.sink.sent = _
      rw [b2.sent]; rfl
    · intro hs
      exact b2.newline (hend.elim (fun h => .inr ⟨h, hs⟩) .inl)
  | false =>
    obtain ⟨pre, b, post, res, b1, b2, b3, b4, b5, b6, b7⟩ := a5 hb
    have hpre := (readMany_prefix _ _ _ _ _ _ _ b1).1
    have hpre' : pre = readMany ucd15 (List.replicate pre.length len) (.new nel lsps) src := by
      have := hpre
      rw [List.replicate_succ', readMany_append] at this
      have hlen : (readMany ucd15 (List.replicate pre.length len) (.new nel lsps) src).length = pre.length := by
        rw [readMany_length]; simp
      exact (List.append_inj this hlen).1.symm
    rw [hpre', hexp, ← hpre'] at b2
    rw [← hpre, hexp, hpre] at b3
    exact ⟨j, r', m, res, a1, a2, a3, ⟨k, fun fuel hf => copyStatus_mono b4 fuel hf⟩, fun h => by rw [hb] at h; simp at h,
      fun _ => ⟨pre, b, post, b1, b2, b3, b5, b6, b7⟩⟩

/-! ## Sources that push at the ends of lines -/

theorem startsWell_of {rs : List ReadResult}
    (h : ∀ pre p r post m, rs = pre ++ p :: r :: post → p.ret = .ok m .push → ∀ c ∈ r.out.head?, isStart U c = true) :
    ∀ b, (b = true → ∀ r ∈ rs.head?, ∀ c ∈ r.out.head?, isStart U c = true) → Spec.startsWell U b rs = true := by
  induction rs with
  | nil => intro b _; rfl
  | cons r rs ih =>
    intro b hb
    unfold Spec.startsWell
    rw [Bool.and_eq_true]
    constructor
    · cases b with
      | false => rfl
      | true =>
        cases hq : r.out.head? with
        | none => rfl
        | some c => exact hb rfl r rfl c hq
    · refine ih (fun pre p r' post m e hp => h (r :: pre) p r' post m (by rw [e]; rfl) hp) _ (fun he r' hr' => ?_)
      cases rs with
      | nil => simp at hr'
      | cons q qs =>
        simp only [List.head?_cons, Option.mem_def, Option.some.injEq] at hr'
        subst hr'
        cases hret : r.ret with
        | ok m st =>
          cases st with
          | push => exact h [] r q qs m rfl hret
          | _ => rw [hret] at he; simp at he
        | _ => rw [hret] at he; simp at he

/-- Not inside an escape sequence. -/
def Outside (k : Ctl) : Prop := (∃ b, k.state = .ground b) ∨ k.state = .cr ∨ k.state = .ff

theorem outside_ground {k : Ctl} {c : Char} (hc : c ≠ ESC) : Outside (groundStep U k c).1 := by
  unfold groundStep Outside
  (repeat' split) <;> simp_all

theorem outside_step {k : Ctl} {c : Char} (h : Outside k) (hc : c ≠ ESC) : Outside (stepChar U k c).1 := by
  unfold stepChar
  rcases h with ⟨b, h⟩ | h | h <;> rw [h] <;> simp only
  · exact outside_ground hc
  · split
    · exact outside_ground hc
    · exact .inl ⟨_, rfl⟩
  · split
    · exact outside_ground hc
    · exact .inr (.inr h)

theorem outside_nl {k : Ctl} (h : Outside k) : (stepChar U k '\n').1.state = .ground true := by
  unfold stepChar
  rcases h with ⟨b, h⟩ | h | h <;> rw [h] <;> simp [groundStep, FF]

theorem outside_feed : ∀ (s : List Char) (k : Ctl), Outside k → ESC ∉ s → Outside (feed U k s).1 := by
  intro s
  induction s with
  | nil => intro k h _; exact h
  | cons c s ih =>
    intro k h hs
    simp only [List.mem_cons, not_or] at hs
    exact ih _ (outside_step h (fun e => hs.1 e.symm)) hs.2

theorem feed_nl {s : List Char} {k : Ctl} (h : Outside k) (hs : ESC ∉ s) (hl : s.getLast? = some '\n') : (feed U k s).1.state = .ground true := by
  rcases List.eq_nil_or_concat s with rfl | ⟨x, c, rfl⟩
  · simp at hl
  · rw [List.concat_eq_append] at hl hs ⊢
    simp at hl
    subst hl
    rw [feed_append]
    exact outside_nl (outside_feed x k h (fun h => hs (by simp [h])))

/-- The state of a reader that has been given `C`, without an end or an escape sequence. -/
structure AtLine (kt : Ctl × List Char) (C : List Char) : Prop where
  outside : Outside kt.1
  nl : C.getLast? = some '\n' → kt.1.state = .ground true
  empty : C = [] → kt.2 = [] ∧ ∃ b, kt.1.state = .ground b

theorem AtLine.absorb {kt : Ctl × List Char} {C s : List Char} {st : Status} (h : AtLine kt C) (hs : ESC ∉ s) (hst : st ≠ .end_) :
    AtLine (absorb U kt s st) (C ++ s) := by
  obtain ⟨k, T⟩ := kt
  -- the raw string
  have hraw : Outside (processRaw U k s).1 ∧ ((C ++ s).getLast? = some '\n' → (processRaw U k s).1.state = .ground true) ∧
      (C ++ s = [] → (processRaw U k s).2 = [] ∧ ∃ b, (processRaw U k s).1.state = .ground b) := by
    have ho : Outside { k with atStart := false } := h.outside
    unfold processRaw
    simp only
    generalize hs' : (if (k.atStart && s.head? == some BOM) = true then s.tail else s) = s'
    have hsub : ESC ∉ s' := by
      rw [← hs']
      split
      · exact fun h => hs (List.mem_of_mem_tail h)
      · exact hs
    refine ⟨outside_feed _ _ ho hsub, ?_, ?_⟩
    · intro hl
      by_cases hn : s = []
      · subst hn
        have : s' = [] := by rw [← hs']; split <;> rfl
        rw [this]
        exact h.nl (by simpa using hl)
      · have hl' : s.getLast? = some '\n' := by
          rw [List.getLast?_append] at hl
          cases hq : s.getLast? with
          | none => rw [List.getLast?_eq_none_iff] at hq; exact absurd hq hn
          | some c => rw [hq] at hl; simpa using hl
        refine feed_nl ho hsub ?_
        rw [← hs']
        split
        · rename_i hb
          cases s with
          | nil => exact absurd rfl hn
          | cons d s =>
            simp only [List.head?_cons, Bool.and_eq_true, beq_iff_eq, Option.some.injEq] at hb
            rw [hb.2, List.getLast?_cons] at hl'
            rw [List.tail_cons]
            cases hq : s.getLast? with
            | none => rw [hq] at hl'; exact absurd hl' (by decide)
            | some e => rw [hq] at hl'; simpa using hl'
        · exact hl'
    · intro he
      obtain ⟨rfl, rfl⟩ := List.append_eq_nil_iff.1 he
      have : s' = [] := by rw [← hs']; split <;> rfl
      rw [this]
      exact ⟨rfl, (h.empty rfl).2⟩
  unfold Verif.absorb
  simp only
  obtain ⟨r1, r2, r3⟩ := hraw
  generalize processRaw U k s = x at r1 r2 r3
  obtain ⟨k', o⟩ := x
  simp only at r1 r2 r3 ⊢
  split
  · exact ⟨r1, r2, fun he => by
      have hT : T = [] := (h.empty (List.append_eq_nil_iff.1 he).1).1
      exact ⟨by simp [(r3 he).1, hT], (r3 he).2⟩⟩
  · unfold finish
    simp only [hst, false_and, if_false]
    rcases r1 with ⟨b, hb⟩ | hb | hb
    · have hf : finishState k' = (k', []) := by unfold finishState; rw [hb]
      rw [hf]
      refine ⟨.inl ⟨b, hb⟩, r2, fun he => ⟨?_, b, hb⟩⟩
      have hT : T = [] := (h.empty (List.append_eq_nil_iff.1 he).1).1
      simp [(r3 he).1, hT, endGuard]
    · have hf : finishState k' = ({ k' with state := .ground true, expectStarter := false }, ['\n']) := by unfold finishState; rw [hb]
      rw [hf]
      refine ⟨.inl ⟨_, rfl⟩, fun _ => rfl, fun he => ?_⟩
      obtain ⟨b, hb'⟩ := (r3 he).2
      rw [hb] at hb'; simp at hb'
    · have hf : finishState k' = ({ k' with state := .ground false, expectStarter := false }, [' ']) := by unfold finishState; rw [hb]
      rw [hf]
      refine ⟨.inl ⟨_, rfl⟩, fun hl => ?_, fun he => ?_⟩
      · have := r2 hl; rw [hb] at this; simp at this
      · obtain ⟨b, hb'⟩ := (r3 he).2
        rw [hb] at hb'; simp at hb'

theorem atLine_all : ∀ (es : List Event) (kt : Ctl × List Char) (C : List Char), AtLine kt C → (∀ e ∈ es, ∃ s st, e = .data s st ∧ st ≠ .end_) →
    ESC ∉ Spec.content es → AtLine (absorbAll U kt es) (C ++ Spec.content es) := by
  intro es
  induction es with
  | nil => intro kt C h _ _; simpa [absorbAll, Spec.content] using h
  | cons e es ih =>
    intro kt C h he hs
    obtain ⟨s, st, rfl, hst⟩ := he e (by simp)
    simp only [Spec.content, List.mem_append, not_or] at hs
    have := ih _ _ (h.absorb (U := U) hs.1 hst) (fun e' he' => he e' (by simp [he'])) hs.2
    simpa [absorbAll, Spec.content] using this

theorem content_append (a b : List Event) : Spec.content (a ++ b) = Spec.content a ++ Spec.content b := by
  induction a with
  | nil => rfl
  | cons e a ih => cases e <;> simp [Spec.content, ih]

/-- When a push has been reported at the end of a line the next read begins well. -/
theorem push_next (hU : TextLaws U) {nel lsps : Bool} {src : List Event} (hsrc : Ending src) (hesc : ESC ∉ Spec.content src)
    (hp : Spec.PushesAtLines src) {lens : List Nat} {r : ReadResult} {m : Nat}
    (hr : (readMany U lens (.new nel lsps) src).getLast? = some r) (hret : r.ret = .ok m .push) (len : Nat) :
    ∀ c ∈ (readWithStatus U len r.input r.src).out.head?, isStart U c = true := by
  obtain ⟨es, s, h1, h2, h3⟩ := run_last hU (Rel.init nel lsps) hr hret (by simp)
  have hsplit : ∃ rest, src = es ++ .data s .push :: rest := by
    obtain ⟨n, hn, hn0⟩ := h1
    by_cases h0 : n = 0
    · subst h0
      exact ⟨_, by simpa using hn.symm⟩
    · rw [hn0 h0, List.append_nil] at hn
      obtain ⟨n', rfl⟩ : ∃ n', n = n' + 1 := ⟨n - 1, by omega⟩
      rw [List.replicate_succ', ← List.append_assoc] at hn
      have := (List.append_inj_right' hn rfl)
      simp [eof] at this
  obtain ⟨rest, hs⟩ := hsplit
  have hdata : ∀ e ∈ es ++ [.data s .push], ∃ s st, e = .data s st ∧ st ≠ .end_ := by
    obtain ⟨evs, last, e1, e2⟩ := hsrc
    intro e he
    simp only [List.mem_append, List.mem_singleton] at he
    rcases he with he | rfl
    · apply e2
      have : src.dropLast = evs := by rw [e1]; simp
      rw [← this, hs, List.dropLast_append_cons]
      simp [he]
    · exact ⟨s, .push, rfl, by simp⟩
  have hC : Spec.content (es ++ [.data s .push]) = Spec.content es ++ s := by simp [content_append, Spec.content]
  have hline : AtLine (absorbAll U ((TextInput.new nel lsps).ctl, []) (es ++ [.data s .push])) (Spec.content es ++ s) := by
    have := atLine_all (U := U) (es ++ [.data s .push]) ((TextInput.new nel lsps).ctl, []) [] ⟨.inl ⟨_, rfl⟩, by simp, fun _ => ⟨rfl, _, rfl⟩⟩ hdata
      (fun h => hesc (by
        rw [hC] at h
        rw [hs, content_append]
        simp only [Spec.content, List.mem_append] at h ⊢
        rcases h with h | h
        · exact .inl h
        · exact .inr (.inl h)))
    rwa [List.nil_append, hC] at this
  have hinv := ctl_absorbAll hU (es ++ [.data s .push]) ((TextInput.new nel lsps).ctl, []) (ctl_new (U := U) nel lsps)
  have hT : (absorbAll U ((TextInput.new nel lsps).ctl, []) (es ++ [.data s .push])).2 = [] ∨
      (absorbAll U ((TextInput.new nel lsps).ctl, []) (es ++ [.data s .push])).2.getLast? = some '\n' := by
    cases hq : (Spec.content es ++ s).getLast? with
    | none => exact .inl (hline.empty (List.getLast?_eq_none_iff.1 hq)).1
    | some c =>
      have := hp es s rest hs c hq
      subst this
      exact hinv.nl (hline.nl hq)
  have h2i := h2.inv
  simp only [List.nil_append] at h2i
  obtain ⟨hq, -⟩ := h2i.at_end h3 hT
  -- a new beginning
  rcases List.eq_nil_or_concat lens with rfl | ⟨lens, l, rfl⟩
  · simp [readMany] at hr
  rw [List.concat_eq_append] at hr h2
  obtain ⟨es', -, g2, -, -⟩ := run_rel hU lens (.new nel lsps) src [] [] (Rel.init nel lsps)
  have hlast : r = readWithStatus U l (finalState (.new nel lsps) src (readMany U lens (.new nel lsps) src)).1
      (finalState (.new nel lsps) src (readMany U lens (.new nel lsps) src)).2 := by
    rw [readMany_append] at hr
    simpa [readMany] using hr.symm
  have hpend : r.input.pending = .active := by
    rw [hlast] at hret ⊢
    exact end_pending hU g2 hret (by simp)
  have hexp : r.input.ctl.expectStarter = true := by
    rw [h2.ctl hpend, List.nil_append, absorbAll_append]
    simp [absorbAll, absorb]
  have hrel : Rel U r.input.ctl r.input [] [] := by
    refine ⟨⟨⟨[], by simp [hq, absorbAll], by simp [h3.iter, hq], by simp⟩, by simp [h3.quick], fun _ => h3.iter⟩, fun _ => rfl,
      fun h => absurd hpend h, ⟨⟨[], by simp [h3.iter, hq], by simp [hq, cut, lastBoundary, segAll]⟩, fun _ => h3.iter⟩⟩
  obtain ⟨es2, -, f2, -, -⟩ := run_rel hU [len] r.input r.src [] [] hrel
  have hc2 := ctl_absorbAll hU es2 (r.input.ctl, []) ⟨by simp, by simp, fun _ => .inl hexp, fun _ => .inl rfl⟩
  have hv := (f2.inv.valid hU (k := (absorbAll U (r.input.ctl, []) es2).1) (by simpa using hc2)).2
  intro c hc
  exact hv c (by simp [readMany, written]; simpa using hc)

/-- C44: `copy_text_using_status` copies every source that reports a push only at the beginning or where its content has just
ended a line, and has no escape sequences, as an interactive source read line by line does. -/
theorem c44_using_status_lines (nel lsps : Bool) (src : List Event) (hsrc : Ending src) (hesc : ESC ∉ Spec.content src) (hp : Spec.PushesAtLines src)
    (len : Nat) (hl : normalizationBufferSize ≤ len) (w : Writer) (hw : Ready w) (lens : List Nat) (hc : Completes ucd15 nel lsps src lens) :
    ∃ res, (∃ k, ∀ fuel, k ≤ fuel → copyTextUsingStatus ucd15 len fuel (.new nel lsps) src w 0 = some res) ∧
      res.ret = .ok (encode (output ucd15 nel lsps src lens)).length ∧
      res.writer.sink.sent = w.sink.sent ++ wire w.crlf (output ucd15 nel lsps src lens) ∧
      (w.state = .ground .newline → res.writer.state = .ground .newline) := by
  obtain ⟨k, last, m, res, h1, h2, h3, h4, h5, -⟩ := c44_using_status_exact nel lsps src hsrc len hl w hw lens hc
  refine ⟨res, h4, h5 (startsWell_of (fun pre p r post n he hret => ?_) _ (by simp))⟩
  obtain ⟨i1, i2⟩ := readMany_prefix _ _ _ _ _ _ _ he
  have hlast : (readMany ucd15 (List.replicate (pre.length + 1) len) (.new nel lsps) src).getLast? = some p := by rw [i1]; simp
  have hr : r = readWithStatus ucd15 len p.input p.src := by
    cases hk : k - (pre.length + 1) with
    | zero => rw [hk] at i2; simp [readMany] at i2
    | succ j => rw [hk, List.replicate_succ, readMany] at i2; simp at i2; exact i2.1
  rw [hr]
  exact push_next textLaws15 hsrc hesc hp hlast hret len

/-- Two lines, each with a push, and a rest. -/
def lineSource : List Event := [.data [] .push, .data ['a', '\r', '\n'] .push, .data ['́', 'b', '\n'] .push, .data ['c'] .end_]

example : Ending lineSource ∧ ESC ∉ Spec.content lineSource ∧ Completes ucd15 false false lineSource (List.replicate 6 136) :=
  ⟨⟨[.data [] .push, .data ['a', '\r', '\n'] .push, .data ['́', 'b', '\n'] .push], ['c'], rfl, by
    intro e he; simp at he; rcases he with rfl | rfl | rfl <;> exact ⟨_, _, rfl, by simp⟩⟩, by decide,
    completes_of (by decide +kernel)⟩

example : Spec.PushesAtLines lineSource := by
  intro a s b h
  unfold lineSource at h
  match a with
  | [] => simp at h; simp [Spec.content, h.1]
  | [x] => simp at h; obtain ⟨rfl, rfl, -⟩ := h; simp [Spec.content]
  | [x, y] => simp at h; obtain ⟨rfl, rfl, rfl, -⟩ := h; simp [Spec.content]
  | [x, y, z] => simp at h
  | x :: y :: z :: u :: a => simp at h

example : (copyTextUsingStatus ucd15 4096 8 (.new false false) lineSource (.new goodSink) 0).map (fun r => (r.ret, r.writer.sink.sent)) =
    some (.ok 10, ['a', '\n', '͏', '́', 'b', '\n', 'c', '\n']) := by decide +kernel

/-- The reads of `pushSource` do not start well, those of `lineSource` do. -/
example : Spec.startsWell ucd15 false (readMany ucd15 [136, 136] (.new false false) pushSource) = false ∧
    Spec.startsWell ucd15 false (readMany ucd15 (List.replicate 6 136) (.new false false) lineSource) = true := by decide +kernel

end Verif
