import Verif.Kinds
import Verif.Strings
import Verif.Props.Copy
import Verif.Props.Sharp

/-!
# Properties of copying from a source whose reads are interrupted (C130)
-/

namespace Verif
open Ucd Spec

/-- No call that has failed had written anything. -/
def Unspoiled (rs : List ReadResult) : Prop := ∀ x ∈ rs, x.ret = .sourceError → x.out = []

theorem unspoiled_delivered : ∀ {rs : List ReadResult}, (∀ x ∈ rs, (∃ n st, x.ret = .ok n st) ∨ x.ret = .sourceError) → Unspoiled rs →
    delivered rs = written rs := by
  intro rs
  induction rs with
  | nil => intro _ _; rfl
  | cons x rs ih =>
    intro h hk
    have := ih (fun y hy => h y (by simp [hy])) (fun y hy => hk y (by simp [hy]))
    rw [delivered_cons, this]
    show _ = x.out ++ written rs
    rcases h x (by simp) with ⟨n, st, he⟩ | he
    · rw [he]; rfl
    · rw [he, hk x (by simp) he]; rfl

/-- Every read with a buffer of sufficient size succeeds or returns the error of the source. -/
theorem reads_either {U : Ucd} (hU : TextLaws U) {len : Nat} (hl : normalizationBufferSize ≤ len) {k0 : Ctl} : ∀ (k : Nat) (t : TextInput) (src : List Event)
    (emitted : List Char) (es : List Event), Rel U k0 t emitted es →
    ∀ r ∈ readMany U (List.replicate k len) t src, (∃ st, r.ret = .ok (encode r.out).length st) ∨ r.ret = .sourceError := by
  intro k
  induction k with
  | zero => intro t src _ _ _ r hr; simp [readMany] at hr
  | succ k ih =>
    intro t src emitted es h r hr
    obtain ⟨-, g⟩ := read_rel hU h (rfl : readWithStatus U len t src = _)
    obtain ⟨es', -, c2, -, c4, c5, -⟩ := g hl
    rw [List.replicate_succ, readMany, List.mem_cons] at hr
    rcases hr with rfl | hr
    · by_cases he : es' = [.err]
      · exact .inr (c4 he)
      · obtain ⟨st, hst, -⟩ := c5 he
        exact .inl ⟨st, hst⟩
    · exact ih _ _ _ _ c2 r hr

/-- C130, whatever the source gives and whatever the sink does: `copy_text` comes to an end, and an interruption is never its result.
A beginning of the text of the reads that have succeeded has been sent; if the result is `Ok(n)`, all of it, and `n` is its length. -/
theorem c130_copy (nel lsps : Bool) (src : List Event) (len : Nat) (hl : normalizationBufferSize ≤ len) (w : Writer) (hb : w.buffer = []) :
    ∃ res, (∃ k, ∀ fuel, k ≤ fuel → copyRetry ucd15 len fuel (.new nel lsps) src w 0 = some res) ∧
      res.ret ≠ .readError .sourceError ∧
      ∃ j, let T := delivered (readMany ucd15 (List.replicate j len) (.new nel lsps) src)
        (∃ p, res.writer.sink.sent = w.sink.sent ++ p ∧ p <+: wire w.crlf T) ∧
        ∀ n, res.ret = .ok n → n = (encode T).length ∧ res.writer.sink.sent = w.sink.sent ++ wire w.crlf T := by
  obtain ⟨k, hk⟩ := reach_empty textLaws15 (ctl_new (U := ucd15) nel lsps) hl src.length (.new nel lsps) src [] [] (Nat.le_refl _) (Rel.init nel lsps)
  obtain ⟨res, hres⟩ := retry_stops (U := ucd15) len k (.new nel lsps) src w 0 hk
  obtain ⟨h0, j, ⟨⟨p, h1, h2, h3⟩, h4⟩, -⟩ := retry_any len k (.new nel lsps) src w 0 res hb hres
  refine ⟨res, ⟨k, fun fuel hf => copyRetry_mono hres fuel hf⟩, h0, j, ⟨p, h1, h2⟩, fun n hn => ⟨?_, ?_⟩⟩
  · rw [h4 n hn, Nat.zero_add]
  · rw [h1, h3 n hn]; rfl

/-- C130 (what holds): on a source that comes to an end but for interruptions, to a sink that works, `copy_text` returns `Ok` and
has sent the whole text, the one that the same source gives without interruptions, if no call that was interrupted had written
anything into the buffer (`k` reads are enough for the copy). -/
theorem c130_whole_partial (nel lsps : Bool) (src : List Event) (hsrc : Ending (src.filter (· ≠ .err))) (len : Nat) (hl : normalizationBufferSize ≤ len)
    (w : Writer) (hw : Ready w) (lens : List Nat) (hc : Completes ucd15 nel lsps (src.filter (· ≠ .err)) lens)
    (k : Nat) (hk : ∃ r ∈ readMany ucd15 (List.replicate k len) (.new nel lsps) src, r.ret = .ok 0 .end_)
    (hkept : Unspoiled (readMany ucd15 (List.replicate k len) (.new nel lsps) src)) :
    ∃ res, (∃ k, ∀ fuel, k ≤ fuel → copyRetry ucd15 len fuel (.new nel lsps) src w 0 = some res) ∧
      res.ret = .ok (encode (output ucd15 nel lsps (src.filter (· ≠ .err)) lens)).length ∧
      res.writer.sink.sent = w.sink.sent ++ wire w.crlf (output ucd15 nel lsps (src.filter (· ≠ .err)) lens) := by
  have hkept : ∀ j, j ≤ k → Unspoiled (readMany ucd15 (List.replicate j len) (.new nel lsps) src) := by
    intro j hj x hx
    refine hkept x ?_
    rw [show List.replicate k len = List.replicate j len ++ List.replicate (k - j) len by simp; omega, readMany_append]
    simp [hx]
  have heither := fun k => reads_either textLaws15 hl k (.new nel lsps) src [] [] (Rel.init nel lsps)
  obtain ⟨j, r', w', hjk, h1, h2, h3, h4⟩ := retry_reads textLaws15 len k (.new nel lsps) src w 0 hw.willing (heither k) hk
    (fun _ j hj => by
      rw [unspoiled_delivered (fun x hx => (heither j x hx).imp (fun ⟨st, h⟩ => ⟨_, st, h⟩) id) (hkept j hj)]
      exact (run_valid textLaws15 nel lsps src _).2)
  obtain ⟨r, n, hr, hn⟩ := hc
  have hT : delivered (readMany ucd15 (List.replicate j len) (.new nel lsps) src) = output ucd15 nel lsps (src.filter (· ≠ .err)) lens :=
    (c27_lost_iff nel lsps src _ lens r' r 0 n hsrc h1 h2 hr hn).2 (hkept j hjk)
  rw [hT] at h3 h4
  refine ⟨_, ⟨k, fun fuel hf => copyRetry_mono h3 fuel hf⟩, by rw [Nat.zero_add], ?_⟩
  show w'.sink.sent = _
  rw [h4.sent]; rfl

/-- C130, the other direction: if `copy_text` returns `Ok(n)`, then `n` is the length of the whole text exactly if no call that was
interrupted had written anything. -/
theorem c130_missing (nel lsps : Bool) (src : List Event) (hsrc : Ending (src.filter (· ≠ .err))) (len fuel : Nat)
    (w : Writer) (hb : w.buffer = []) (lens : List Nat) (hc : Completes ucd15 nel lsps (src.filter (· ≠ .err)) lens) (res : CopyResult)
    (hres : copyRetry ucd15 len fuel (.new nel lsps) src w 0 = some res) (n : Nat) (hn : res.ret = .ok n) :
    ∃ j, let reads := readMany ucd15 (List.replicate j len) (.new nel lsps) src
      (∃ r ∈ reads.getLast?, r.ret = .ok 0 .end_) ∧
      (n = (encode (output ucd15 nel lsps (src.filter (· ≠ .err)) lens)).length ↔ Unspoiled reads) ∧
      n ≤ (encode (output ucd15 nel lsps (src.filter (· ≠ .err)) lens)).length := by
  obtain ⟨h0, j, ⟨-, h4⟩, h5⟩ := retry_any len fuel (.new nel lsps) src w 0 res hb hres
  obtain ⟨r, hr, hend⟩ := h5 n hn
  obtain ⟨r2, n2, hr2, hn2⟩ := hc
  have hlost := c27_lost_iff nel lsps src _ lens r r2 0 n2 hsrc hr hend hr2 hn2
  have hcons := c27_conserved_partial nel lsps src _ lens r r2 0 n2 hsrc hr hend hr2 hn2
  have hsub : ∀ rs : List ReadResult, (encode (delivered rs)).length ≤ (encode (written rs)).length ∧
      ((encode (delivered rs)).length = (encode (written rs)).length → delivered rs = written rs) := by
    intro rs
    induction rs with
    | nil => simp [delivered, written]
    | cons x rs ih =>
      obtain ⟨i1, i2⟩ := ih
      rw [delivered_cons, show written (x :: rs) = x.out ++ written rs from rfl, encode_append, encode_append]
      have hx := length_le_encode x.out
      split
      · simp only [List.length_append]
        exact ⟨by omega, fun h => by rw [i2 (by omega)]⟩
      · simp only [List.length_append, encode, List.flatMap_nil, List.nil_append] at *
        refine ⟨by omega, fun h => ?_⟩
        have : x.out = [] := List.length_eq_zero_iff.1 (by omega)
        rw [this, List.nil_append]
        exact i2 (by omega)
  have hn' := h4 n hn
  rw [Nat.zero_add] at hn'
  refine ⟨j, ⟨r, hr, hend⟩, ?_, ?_⟩
  · show _ ↔ ∀ x ∈ _, _
    rw [← hlost]
    unfold output
    rw [← hcons, hn']
    exact ⟨(hsub _).2, fun h => by rw [h]⟩
  · unfold output
    rw [← hcons, hn']
    exact (hsub _).1

/-- C130: an interruption right after a read that has left room for a scalar in its buffer loses nothing, nor does one right after another
interruption. -/
theorem c130_room (nel lsps : Bool) (src : List Event) (lens : List Nat) (len : Nat) (hl : normalizationBufferSize ≤ len) (rest : List Event)
    (r : ReadResult) (hr : (readMany ucd15 lens (.new nel lsps) src).getLast? = some r) (l : Nat) (hlast : lens.getLast? = some l)
    (h : (∃ n st, r.ret = .ok n st ∧ n + 4 ≤ l) ∨ r.ret = .sourceError) :
    readWithStatus ucd15 len r.input (.err :: rest) = { ret := .sourceError, out := [], input := r.input, src := rest } := by
  rw [List.getLast?_eq_some_iff] at hlast
  obtain ⟨lens', rfl⟩ := hlast
  rw [readMany_append] at hr
  obtain ⟨es', -, j2, -, -⟩ := run_rel textLaws15 lens' (.new nel lsps) src [] [] (Rel.init nel lsps)
  generalize finalState (.new nel lsps) src (readMany ucd15 lens' (.new nel lsps) src) = f at hr j2
  simp only [readMany, List.getLast?_append, List.getLast?_singleton, Option.some_or, Option.some.injEq] at hr
  subst hr
  rcases h with ⟨n, st, h1, h2⟩ | h
  · exact read_err (readWithStatus_idle textLaws15 j2.inv h1 h2) (roomy_pending h1 h2 textLaws15 j2) hl rest
  · obtain ⟨a, b⟩ := err_still textLaws15 j2 h
    exact read_err a b hl rest

/-- A line longer than the buffer, then an interruption, then the rest. -/
def longLine : List Event := [.data (List.replicate 137 'a' ++ ['\n']) .active, .err, .data ['b', '\n'] .end_]

/-- C130 fails: `copy_text` returns `Ok(135)` though the text has 140 bytes; five bytes are missing. -/
theorem c130_refuted : (copyRetry ucd15 136 10 (.new false false) longLine (.new goodSink) 0).map (fun res => (res.ret, res.writer.sink.sent)) =
      some (.ok 135, List.replicate 133 'a' ++ ['b', '\n']) ∧
    output ucd15 false false (longLine.filter (· ≠ .err)) [136, 136, 136, 136] = List.replicate 137 'a' ++ ['\n', 'b', '\n'] := by
  decide +kernel

/-- C130: `copy_text_using_status` does not try again, and returns `Ok` only if no call was interrupted; then the number is that of the
whole text. -/
theorem c130_using_status (nel lsps : Bool) (src : List Event) (hsrc : Ending (src.filter (· ≠ .err))) (len fuel : Nat) (w : Writer)
    (lens : List Nat) (hc : Completes ucd15 nel lsps (src.filter (· ≠ .err)) lens) (res : CopyResult)
    (hres : copyTextUsingStatus ucd15 len fuel (.new nel lsps) src w 0 = some res) (n : Nat) (hn : res.ret = .ok n) :
    n = (encode (output ucd15 nel lsps (src.filter (· ≠ .err)) lens)).length := by
  obtain ⟨j, h1, ⟨r, n', h2, h3⟩, h4⟩ := status_all_ok len fuel (.new nel lsps) src w 0 res n hres hn
  obtain ⟨r2, n2, hr2, hn2⟩ := hc
  rw [h4, Nat.zero_add, (c27_lost_iff nel lsps src _ lens r r2 n' n2 hsrc h2 h3 hr2 hn2).2 (fun x hx he => by
    have := h1 x hx; rw [he] at this; simp [Ret.isOk] at this)]
  rfl

example : (copyTextUsingStatus ucd15 136 10 (.new false false) longLine (.new goodSink) 0).map (fun res => res.ret) =
    some (.readError .sourceError) := by decide +kernel

/-- A source that is interrupted between two lines. -/
def hiccup : List Event := [.err, .data ['a', '\n'] .active, .err, .err, .data ['b', '\n'] .end_]

example : Ending (hiccup.filter (· ≠ .err)) ∧ Completes ucd15 false false (hiccup.filter (· ≠ .err)) [136, 136] ∧ Ready (.new goodSink) ∧
    (∃ r ∈ readMany ucd15 (List.replicate 6 136) (.new false false) hiccup, r.ret = .ok 0 .end_) ∧
    Unspoiled (readMany ucd15 (List.replicate 6 136) (.new false false) hiccup) :=
  ⟨⟨[.data ['a', '\n'] .active], ['b', '\n'], rfl, fun e he => ⟨_, _, List.mem_singleton.1 he, by simp⟩⟩, completes_of (by decide +kernel),
    ⟨⟨_, rfl⟩, rfl, rfl, rfl⟩, by decide +kernel, by unfold Unspoiled; decide +kernel⟩

example : ∃ res, copyRetry ucd15 136 10 (.new false false) hiccup (.new goodSink) 0 = some res ∧ res.ret = .ok 4 := by
  have h : (copyRetry ucd15 136 10 (.new false false) hiccup (.new goodSink) 0).map (fun res => res.ret) = some (.ok 4) := by decide +kernel
  revert h
  generalize copyRetry ucd15 136 10 (.new false false) hiccup (.new goodSink) 0 = x
  cases x with
  | none => intro h; simp at h
  | some res => intro h; exact ⟨res, rfl, by simpa using h⟩

example : ∃ r, (readMany ucd15 [136] (.new false false) [.data ['a', '\n'] .active]).getLast? = some r ∧ ([136] : List Nat).getLast? = some 136 ∧
    ∃ n st, r.ret = .ok n st ∧ n + 4 ≤ 136 := by
  refine ⟨readWithStatus ucd15 136 (.new false false) [.data ['a', '\n'] .active], rfl, rfl, 2, .active, by decide +kernel, by decide⟩

/-- A line that fills the buffer, then an interruption, then a line that begins with U+301. -/
def brokenLine : List Event := [.data (List.replicate 133 'a' ++ ['\n']) .active, .err, .data ['́', '\n'] .end_]

/-- C14 does not extend to sources that fail: a client that reads on after a failed read, as `copy_text` does when it was an interruption, may
get text that is not Basic Text, since the newline that the failed read took with it was all that kept U+301 apart from the letter. -/
theorem c14_refuted_after_failure : (readMany ucd15 [136, 136, 136] (.new false false) brokenLine).map (fun r => (r.ret, r.out)) =
      [(.ok 133 .active, List.replicate 133 'a'), (.sourceError, ['\n']), (.ok 3 .end_, ['́', '\n'])] ∧
    isBasicTextSubstr ucd15 (output ucd15 false false brokenLine [136, 136, 136]) = false := by
  decide +kernel

/-- C130: and `copy_text` then makes a writer send text that is not Basic Text, and returns `Ok`. -/
theorem c130_refuted_valid : (copyRetry ucd15 136 10 (.new false false) brokenLine (.new goodSink) 0).map (fun res =>
      (res.ret, res.writer.sink.sent, isBasicTextSubstr ucd15 res.writer.sink.sent)) =
    some (.ok 136, List.replicate 133 'a' ++ ['́', '\n'], false) := by
  decide +kernel

/-- C15 for what the successful reads deliver: as long as the source does not fail, it is empty or ends with a newline once the end has
been reported. -/
theorem c15_delivered_ends_newline (nel lsps : Bool) (src : List Event) (hs : ∀ e ∈ src, e ≠ .err) (lens : List Nat) (r : ReadResult) (n : Nat)
    (hr : (readMany ucd15 lens (.new nel lsps) src).getLast? = some r) (hok : r.ret = .ok n .end_) :
    output ucd15 nel lsps src lens = [] ∨ (output ucd15 nel lsps src lens).getLast? = some '\n' := by
  unfold output
  rw [run_delivered textLaws15 nel lsps hs lens]
  exact (c15_reader_ends_newline nel lsps src lens r n hr hok).1

/-- C15 does not extend to sources that fail either: the newline may have been in the read that failed. -/
theorem c15_refuted_after_failure : (readMany ucd15 [136, 136, 136] (.new false false)
      [.data (List.replicate 133 'a' ++ ['\n']) .active, .err, .data [] .end_]).map (fun r => (r.ret, r.out)) =
    [(.ok 133 .active, List.replicate 133 'a'), (.sourceError, ['\n']), (.ok 0 .end_, [])] := by
  decide +kernel

/-! ## Errors of different kinds -/

/-- C130 on a source that is interrupted and fails in other ways too (`kinds` says which of its errors are interruptions): `copy_text` comes to
an end.  Either it ends as if all errors were interruptions, and then not with an error of the source; or it returns the first error
that is no interruption, after having sent all that the successful reads have delivered up to there. -/
theorem c130_kinds (nel lsps : Bool) (src : List Event) (kinds : List Bool) (len : Nat) (hl : normalizationBufferSize ≤ len) (w : Writer)
    (hb : w.buffer = []) :
    ∃ res k, (∀ fuel, k ≤ fuel → copyKinds ucd15 len fuel kinds (.new nel lsps) src w 0 = some res) ∧
      ((res.ret ≠ .readError .sourceError ∧ ∀ fuel, k ≤ fuel → copyRetry ucd15 len fuel (.new nel lsps) src w 0 = some res) ∨
      (res.ret = .readError .sourceError ∧ ∃ j, let reads := readMany ucd15 (List.replicate j len) (.new nel lsps) src
        (∃ r ∈ reads.getLast?, r.ret = .sourceError) ∧ reads.countP (fun r => r.ret == .sourceError) = (kinds.takeWhile id).length + 1 ∧
        res.writer.sink.sent = w.sink.sent ++ wire w.crlf (delivered reads))) := by
  obtain ⟨k, hk⟩ := reach_empty textLaws15 (ctl_new (U := ucd15) nel lsps) hl src.length (.new nel lsps) src [] [] (Nat.le_refl _) (Rel.init nel lsps)
  obtain ⟨res0, hres0⟩ := retry_stops (U := ucd15) len k (.new nel lsps) src w 0 hk
  obtain ⟨res, hres⟩ := kinds_stops len k kinds (.new nel lsps) src w 0 res0 hres0
  refine ⟨res, k, fun fuel hf => kinds_mono hres fuel hf, ?_⟩
  rcases kinds_any len k kinds (.new nel lsps) src w 0 res hb hres with ⟨h1, h2⟩ | ⟨h1, j, h2⟩
  · exact .inl ⟨h2, fun fuel hf => copyRetry_mono h1 fuel hf⟩
  · exact .inr ⟨h1, j, h2.last, h2.count, h2.sent⟩

/-- C130: if all errors of the source are interruptions the copy is that of the theorems before, and if the first is none, that of C44. -/
theorem c130_one_kind (nel lsps : Bool) (src : List Event) (kinds : List Bool) (len fuel : Nat) (w : Writer) (hb : w.buffer = []) (res : CopyResult)
    (h : copyKinds ucd15 len fuel kinds (.new nel lsps) src w 0 = some res) :
    (kinds = List.replicate (src.count .err) true → copyRetry ucd15 len fuel (.new nel lsps) src w 0 = some res) ∧
    (kinds.head? ≠ some true → copyText ucd15 len fuel (.new nel lsps) src w 0 = some res) := by
  constructor
  · rintro rfl
    rcases kinds_any len fuel _ (.new nel lsps) src w 0 res hb h with ⟨h1, -⟩ | ⟨-, j, h2⟩
    · exact h1
    · have h3 := h2.count
      have h4 := failures_le (U := ucd15) (List.replicate j len) (.new nel lsps) src
      rw [h3, patience, List.takeWhile_replicate] at h4
      simp at h4
      omega
  · intro hk
    rw [← kinds_none (kinds := kinds) _ (by cases kinds with | nil => rfl | cons b _ => cases b <;> simp_all)]
    exact h

/-- A line, an interruption, a line, a failure, a line. -/
def twoKinds : List Event := [.data ['a', '\n'] .active, .err, .data ['b', '\n'] .active, .err, .data ['c', '\n'] .end_]

example : (copyKinds ucd15 136 10 [true, false] (.new false false) twoKinds (.new goodSink) 0).map (fun res => (res.ret, res.writer.sink.sent)) =
      some (.readError .sourceError, ['a', '\n', 'b', '\n']) ∧
    (copyKinds ucd15 136 10 [true, true] (.new false false) twoKinds (.new goodSink) 0).map (fun res => (res.ret, res.writer.sink.sent)) =
      some (.ok 6, ['a', '\n', 'b', '\n', 'c', '\n']) ∧
    (copyKinds ucd15 136 10 [] (.new false false) twoKinds (.new goodSink) 0).map (fun res => (res.ret, res.writer.sink.sent)) =
      some (.readError .sourceError, ['a', '\n']) := by decide +kernel

/-- C54 fails for a third reason: `read_to_end` goes on after an interruption (that is its contract), so the text it collects may have lost a
newline to the failed read; `read_to_text_string` then returns `Ok` with a `TextString` that is not Basic Text. -/
theorem c54_refuted_interrupted : (readToTextString ucd15 [] (some (output ucd15 false false brokenLine [136, 136, 136])) []).2 = .ok 136 ∧
    isBasicText ucd15 (readToTextString ucd15 [] (some (output ucd15 false false brokenLine [136, 136, 136])) []).1 = false := by
  decide +kernel

end Verif
