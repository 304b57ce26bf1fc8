import Verif.Log
import Verif.Props.Pieces
import Verif.Props.Exact
import Verif.Props.Writer

/-!
# Several writers that append lines to one log (C147)
-/

namespace Verif
open Ucd Spec

/-- The log before anything is written: every writer is a new `TextWriter`. -/
def Log.empty : Log := { ws := fun _ => .new goodSink, text := [] }

theorem empty_lines (i : Nat) : LineWriter (Log.empty.ws i) true :=
  Or.inl ⟨idle_new rfl rfl, rfl, fun _ => rfl⟩

/-- C147: the log is what the calls that succeeded wrote, in their order, normalized as if it was one text; a call that fails leaves nothing
in it. -/
theorem c147_text (cs : List (Nat × List Char)) (hl : ∀ p ∈ cs, p.2.getLast? = some '\n') :
    (Log.empty.run ucd15 (strs cs)).text = (Log.empty.accepted ucd15 cs).flatMap (normChain ucd15) ∧
    (Log.empty.run ucd15 (strs cs)).text = normChain ucd15 (Log.empty.accepted ucd15 cs).flatten := by
  have h := (log_lines textLaws15 empty_lines hl).1
  have e : (Log.empty.run ucd15 (strs cs)).text = (Log.empty.accepted ucd15 cs).flatMap (normChain ucd15) := by rw [h]; rfl
  refine ⟨e, e.trans (normChain_flatten textLaws15 fun s hs => ?_)⟩
  obtain ⟨i, hi⟩ := accepted_sub s hs
  exact hl _ hi

theorem flatten_last {ss : List (List Char)} (h : ∀ s ∈ ss, s.getLast? = some '\n') : ss.flatten = [] ∨ ss.flatten.getLast? = some '\n' := by
  induction ss with
  | nil => exact Or.inl rfl
  | cons s ss ih =>
    rcases ih fun t ht => h t (by simp [ht]) with e | e
    · right; rw [List.flatten_cons, e, List.append_nil]; exact h s (by simp)
    · right; rw [List.flatten_cons, List.getLast?_append, e]; rfl

/-- C147: the log is Basic Text, and consists of complete lines. -/
theorem c147_valid (cs : List (Nat × List Char)) (hl : ∀ p ∈ cs, p.2.getLast? = some '\n') :
    fromText (isBasicText ucd15) (Log.empty.run ucd15 (strs cs)).text = .ok (Log.empty.run ucd15 (strs cs)).text ∧
    ((Log.empty.run ucd15 (strs cs)).text = [] ∨ (Log.empty.run ucd15 (strs cs)).text.getLast? = some '\n') := by
  have hs : ∀ s ∈ Log.empty.accepted ucd15 cs, s.getLast? = some '\n' := fun s hs => by
    obtain ⟨i, hi⟩ := accepted_sub s hs
    exact hl _ hi
  obtain ⟨-, h2, h3⟩ := log_lines textLaws15 empty_lines hl
  have h3 := h3 rfl
  rw [(c147_text cs hl).2]
  have hlast : normChain ucd15 (Log.empty.accepted ucd15 cs).flatten = [] ∨
      (normChain ucd15 (Log.empty.accepted ucd15 cs).flatten).getLast? = some '\n' := by
    rcases flatten_last hs with e | e
    · left; rw [e]; exact normChain_nil
    · right; exact (last_normChain_nl textLaws15).2 e
  refine ⟨fromText_ok_iff.2 ⟨?_, rfl⟩, hlast⟩
  generalize Log.empty.accepted ucd15 cs = ss at *
  refine text_iff.2 ⟨?_, ?_, substr_iff.2 ⟨ok_normChain textLaws15 fun c hc => ?_, normChain_nss textLaws15 _⟩⟩
  · cases ss with
    | nil => intro c hc; rw [List.flatten_nil, normChain_nil] at hc; simp at hc
    | cons s ss =>
      intro c hc
      rw [List.flatten_cons, head_lines textLaws15 (hs s (by simp))] at hc
      exact (h3 s (by simp)).2 rfl c hc
  · intro c hc
    rcases hlast with e | e
    · rw [e] at hc; simp at hc
    · rw [e] at hc; simp at hc; subst hc; decide
  · obtain ⟨s, h, hm⟩ := List.mem_flatten.1 hc
    exact Or.inl (h2 s h c hm)

theorem run_lines {U : Ucd} (hU : TextLaws U) {ss : List (List Char)} : ∀ {w : Writer}, WIdle w → w.crlf = false →
    (∀ s ∈ ss, s.getLast? = some '\n') → (∀ s ∈ ss, ∀ c ∈ s, okChar c = true) →
    (w.expectStarter = true → ∀ s ∈ ss.head?, Good U true (.str s)) →
    (run U w (ss.map .str)).sink.sent = w.sink.sent ++ ss.flatMap (normChain U) ∧ ∀ o ∈ results U w (ss.map .str), o = .ok := by
  induction ss with
  | nil => intro w _ _ _ _ _; simp [run, results]
  | cons s ss ih =>
    intro w hw hc hl ho hg
    have good : Good U w.expectStarter (.str s) := ⟨ho s (by simp), fun he => (hg he s (by simp)).2 rfl⟩
    rcases writeStr_lines hU hw (hl s (by simp)) with ⟨w', hw', he, h1, -, hw1⟩ | ⟨-, h⟩
    · have hs : step U w (.str s) = (w', .ok) := h1
      obtain ⟨e1, e2⟩ := ih hw' (by rw [hw1]; exact hc) (fun t ht => hl t (by simp [ht])) (fun t ht => ho t (by simp [ht]))
        (by rw [he]; simp)
      have er : run U w (Op.str s :: ss.map .str) = run U w' (ss.map .str) := by rw [run, hs]
      rw [List.map_cons, er, e1]
      refine ⟨by rw [hw1]; simp [enc, hc], ?_⟩
      simp only [results, hs]
      simpa using e2
    · exact absurd good h

/-- C147: a single writer that is given the calls that succeeded, in their order, accepts them all and sends the same text. -/
theorem c147_like_one (cs : List (Nat × List Char)) (hl : ∀ p ∈ cs, p.2.getLast? = some '\n') :
    (run ucd15 (.new goodSink) ((Log.empty.accepted ucd15 cs).map .str)).sink.sent = (Log.empty.run ucd15 (strs cs)).text ∧
    ∀ o ∈ results ucd15 (.new goodSink) ((Log.empty.accepted ucd15 cs).map .str), o = .ok := by
  obtain ⟨h1, h2, h3⟩ := log_lines textLaws15 empty_lines hl
  obtain ⟨e1, e2⟩ := run_lines textLaws15 (w := .new goodSink) (idle_new rfl rfl) rfl
    (fun s hs => by obtain ⟨i, hi⟩ := accepted_sub s hs; exact hl _ hi) h2 (fun _ => h3 rfl)
  exact ⟨by rw [e1, (c147_text cs hl).1]; rfl, e2⟩

/-- C147: each writer behaves as if the others did not exist: the results of its calls, and what it has sent, are those of the same calls
on a writer alone.  For calls of any kind, on writers of any kind. -/
theorem c147_own (x : Log) (i : Nat) (cs : List (Nat × Op)) :
    (x.run ucd15 cs).ws i = run ucd15 (x.ws i) ((cs.filter fun p => p.1 == i).map (·.2)) ∧
    ((cs.zip (x.results ucd15 cs)).filter fun p => p.1.1 == i).map (·.2) =
      results ucd15 (x.ws i) ((cs.filter fun p => p.1 == i).map (·.2)) := by
  refine ⟨log_own x i cs, ?_⟩
  induction cs generalizing x with
  | nil => rfl
  | cons p cs ih =>
    obtain ⟨j, op⟩ := p
    have := ih (x.step ucd15 j op).1
    rw [Log.results, List.zip_cons_cons]
    by_cases h : j = i
    · subst h
      rw [List.filter_cons_of_pos (by simp), List.filter_cons_of_pos (by simp), List.map_cons, List.map_cons, this, results]
      simp [Log.step]
    · have h' : i ≠ j := fun e => h e.symm
      rw [List.filter_cons_of_neg (by simpa using h), List.filter_cons_of_neg (by simpa using h), this]
      simp [Log.step, h']

/-- C147: a reader of the log, whatever the pieces in which its bytes come, delivers it as it is, if no unassigned scalars were written. -/
theorem c147_read (cs : List (Nat × List Char)) (hl : ∀ p ∈ cs, p.2.getLast? = some '\n') (ha : ∀ p ∈ cs, ∀ c ∈ p.2, isAssigned ucd15 c = true)
    (nel lsps : Bool) (bs : List Bytes) (last : Bytes) (hb : bs.flatten ++ last = encode (Log.empty.run ucd15 (strs cs)).text) (lens : List Nat)
    (h : Completes ucd15 nel lsps (byteScript bs last) lens) :
    output ucd15 nel lsps (byteScript bs last) lens = (Log.empty.run ucd15 (strs cs)).text := by
  obtain ⟨hv, hn⟩ := c147_valid cs hl
  have hd : (decodeReads [] bs last).1.flatten ++ (decodeReads [] bs last).2 = (Log.empty.run ucd15 (strs cs)).text := by
    have := c74_pieces_decode bs last
    rw [Delivers, hb, utf8Lossy_encode] at this
    exact this
  refine (c88_reader_unchanged nel lsps _ hv hn).2 ?_ _ _ lens hd h
  rw [(c147_text cs hl).2]
  refine assigned_normChain textLaws15 fun c hc => ?_
  obtain ⟨s, hs, hm⟩ := List.mem_flatten.1 hc
  obtain ⟨i, hi⟩ := accepted_sub s hs
  exact ha _ hi c hm

/-- Two writers; one of them is refused a line with a control, and with it its later lines; the other goes on. -/
example : Log.empty.results ucd15 (strs [(0, ['e', '́', '\n']), (1, ['b', '\n', 'c', '\n']), (0, ['\x07', '\n']), (1, ['́', '\n']), (0, ['d', '\n'])]) =
      [.ok, .ok, .err, .ok, .err] ∧
    (Log.empty.run ucd15 (strs [(0, ['e', '́', '\n']), (1, ['b', '\n', 'c', '\n']), (0, ['\x07', '\n']), (1, ['́', '\n']), (0, ['d', '\n'])])).text =
      ['é', '\n', 'b', '\n', 'c', '\n', '́', '\n'] ∧
    Log.empty.accepted ucd15 [(0, ['e', '́', '\n']), (1, ['b', '\n', 'c', '\n']), (0, ['\x07', '\n']), (1, ['́', '\n']), (0, ['d', '\n'])] =
      [['e', '́', '\n'], ['b', '\n', 'c', '\n'], ['́', '\n']] := by decide +kernel

/-- C147: it has to be whole lines.  Each writer accepts its calls and sends Basic Text, but the log is not Basic Text. -/
theorem c147_refuted_parts :
    Log.empty.results ucd15 [(1, .str ['x', '\n']), (0, .str ['e']), (1, .str ['́', '\n']), (0, .str ['\n']), (0, .close), (1, .close)] =
      [.ok, .ok, .ok, .ok, .ok, .ok] ∧
    ∃ L : Log, L = Log.empty.run ucd15 [(1, .str ['x', '\n']), (0, .str ['e']), (1, .str ['́', '\n']), (0, .str ['\n']), (0, .close), (1, .close)] ∧
      isBasicText ucd15 (L.ws 0).sink.sent = true ∧ isBasicText ucd15 (L.ws 1).sink.sent = true ∧ isBasicText ucd15 L.text = false := by
  refine ⟨by decide +kernel, _, rfl, by decide +kernel, by decide +kernel, by decide +kernel⟩

/-! ## Calls of any kind -/

/-- What a call puts into the stream if it succeeds: a string, or the string that bytes encode, normalized; a `TextSubstr` as it is. -/
inductive Puts : Op → List Char → Prop
  | str (s) : Puts (.str s) (normChain ucd15 s)
  | text (s) : Puts (.text s) s
  | bytes (s) : Puts (.bytes (encode s)) (normChain ucd15 s)
  | flush : Puts .flush []
  | close : Puts .close []
  | abandon : Puts .abandon []

theorem empty_good : GoodLog ucd15 Log.empty true :=
  ⟨empty_lines, by simp [Log.empty], substr_iff.2 ⟨by simp [Log.empty], nss_nil⟩, Or.inl rfl, by simp [Log.empty]⟩

theorem taken_sub {x : Log} {cs : List (Nat × Op)} : ∀ op ∈ x.taken ucd15 cs, ∃ i, (i, op) ∈ cs := by
  induction cs generalizing x with
  | nil => simp [Log.taken]
  | cons p cs ih =>
    intro s hs
    simp only [Log.taken] at hs
    split at hs
    · rcases List.mem_cons.1 hs with rfl | hs
      · exact ⟨p.1, by simp⟩
      · obtain ⟨i, h⟩ := ih s hs; exact ⟨i, by simp [h]⟩
    · obtain ⟨i, h⟩ := ih s hs; exact ⟨i, by simp [h]⟩

/-- C147 for calls of any kind, flushing, closing and abandoning included, the writes being of whole lines: the log is what the calls that
succeeded put into it one after the other, is Basic Text, and consists of complete lines. -/
theorem c147_calls (cs : List (Nat × Op)) (hl : ∀ p ∈ cs, p.2.Lines ucd15) :
    (∃ ts : List (List Char), ts.length = (Log.empty.taken ucd15 cs).length ∧ (∀ q ∈ (Log.empty.taken ucd15 cs).zip ts, Puts q.1 q.2) ∧
      (Log.empty.run ucd15 cs).text = ts.flatten) ∧
    fromText (isBasicText ucd15) (Log.empty.run ucd15 cs).text = .ok (Log.empty.run ucd15 cs).text ∧
    ((Log.empty.run ucd15 cs).text = [] ∨ (Log.empty.run ucd15 cs).text.getLast? = some '\n') := by
  obtain ⟨⟨b, hg⟩, ht⟩ := goodLog_run textLaws15 empty_good hl
  refine ⟨⟨(Log.empty.taken ucd15 cs).map (said ucd15), by simp, ?_, by rw [ht, ← List.flatMap_def]; rfl⟩,
    fromText_ok_iff.2 ⟨text_iff.2 ⟨hg.head, ?_, hg.valid⟩, rfl⟩, hg.lines⟩
  · have hm : ∀ op ∈ Log.empty.taken ucd15 cs, Puts op (said ucd15 op) := by
      intro op ho
      obtain ⟨i, hi⟩ := taken_sub op ho
      have := hl _ hi
      cases op with
      | str s => exact .str s
      | text s => exact .text s
      | bytes b =>
        obtain ⟨s, rfl, -⟩ := this
        have e := decodePrefix_encode s [] rfl
        rw [List.append_nil] at e
        simp only [said, e]
        exact .bytes s
      | flush => exact .flush
      | close => exact .close
      | abandon => exact .abandon
    generalize Log.empty.taken ucd15 cs = l at hm
    intro q hq
    rw [List.zip_map_right] at hq
    obtain ⟨q', hq', rfl⟩ := List.mem_map.1 hq
    have : q'.1 = q'.2 := by
      clear hm hq
      induction l with
      | nil => simp at hq'
      | cons a l ih =>
        rw [List.zip_cons_cons] at hq'
        rcases List.mem_cons.1 hq' with rfl | h
        · rfl
        · exact ih h
    have hmem := (List.of_mem_zip (a := q'.1) (b := q'.2) hq').1
    show Puts q'.1 (said ucd15 q'.2)
    rw [← this]
    exact hm _ hmem
  · intro c hc
    rcases hg.lines with e | e
    · rw [e] at hc; simp at hc
    · rw [e] at hc; simp at hc; subst hc; decide

example : Log.empty.results ucd15 [(0, .text ['a', '\n']), (1, .bytes (encode ['e', '́', '\n'])), (0, .flush), (0, .str ['́', '\n']),
      (1, .close), (1, .str ['b', '\n']), (2, .str ['c', '\n'])] = [.ok, .ok, .ok, .err, .ok, .err, .ok] ∧
    (Log.empty.run ucd15 [(0, .text ['a', '\n']), (1, .bytes (encode ['e', '́', '\n'])), (0, .flush), (0, .str ['́', '\n']),
      (1, .close), (1, .str ['b', '\n']), (2, .str ['c', '\n'])]).text = ['a', '\n', 'é', '\n', 'c', '\n'] := by decide +kernel

end Verif
