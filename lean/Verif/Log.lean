import Verif.WriteMany

/-!
# Several writers that append to one stream

Each `TextWriter` is on its own handle of one stream that is appended to (a log opened by several parts of a program); a call puts what it
writes to its handle at the end of the stream.
-/

namespace Verif
open Ucd

variable {U : Ucd}

/-- The writers, and the text on the stream that they share. -/
structure Log where
  ws : Nat → Writer
  text : List Char

/-- A call on the writer `i` (`src/text_output.rs:262-292`, `428-513`): it changes this writer only, and what it sends is appended to the
stream.  Calls do not overlap: each makes at most one write (C127), and such a write is taken to be appended at once. -/
def Log.step (U : Ucd) (x : Log) (i : Nat) (op : Op) : Log × Out :=
  let r := Verif.step U (x.ws i) op
  ({ ws := fun j => if j = i then r.1 else x.ws j, text := x.text ++ r.1.sink.sent.drop (x.ws i).sink.sent.length }, r.2)

/-- Calls one after the other. -/
def Log.run (U : Ucd) (x : Log) : List (Nat × Op) → Log
  | [] => x
  | (i, op) :: cs => Log.run U (x.step U i op).1 cs

/-- The results of the calls. -/
def Log.results (U : Ucd) (x : Log) : List (Nat × Op) → List Out
  | [] => []
  | (i, op) :: cs => (x.step U i op).2 :: Log.results U (x.step U i op).1 cs

/-- The strings of the calls that succeeded, in their order. -/
def Log.accepted (U : Ucd) (x : Log) : List (Nat × List Char) → List (List Char)
  | [] => []
  | (i, s) :: cs =>
    let r := x.step U i (.str s)
    if r.2 = .ok then s :: Log.accepted U r.1 cs else Log.accepted U r.1 cs

/-- Calls of `write_str`. -/
def strs (cs : List (Nat × List Char)) : List (Nat × Op) := cs.map fun p => (p.1, .str p.2)

/-- A writer that is between lines, or has failed; `b`: nothing at all has been accepted by any writer yet. -/
def LineWriter (w : Writer) (b : Bool) : Prop :=
  (WIdle w ∧ w.crlf = false ∧ (b = true → w.expectStarter = true)) ∨ w.sink.dead = true

theorem log_line (hU : TextLaws U) {x : Log} {b : Bool} (hx : ∀ i, LineWriter (x.ws i) b) (i : Nat) {s : List Char}
    (hl : s.getLast? = some '\n') :
    ((x.step U i (.str s)).2 = .ok ∧ (x.step U i (.str s)).1.text = x.text ++ normChain U s ∧
      (∀ j, LineWriter ((x.step U i (.str s)).1.ws j) false) ∧ Good U b (.str s)) ∨
    ((x.step U i (.str s)).2 = .err ∧ (x.step U i (.str s)).1.text = x.text ∧ ∀ j, LineWriter ((x.step U i (.str s)).1.ws j) b) := by
  have weak : ∀ j, LineWriter (x.ws j) false := fun j => (hx j).imp (fun h => ⟨h.1, h.2.1, by simp⟩) id
  rcases hx i with ⟨hw, hc, he⟩ | hd
  · rcases writeStr_lines hU hw hl with ⟨w', hw', he', h1, hg, hw1⟩ | ⟨h1, hg⟩
    · refine Or.inl ⟨?_, ?_, ?_, ?_⟩
      · simp [Log.step, Verif.step, h1]
      · simp [Log.step, Verif.step, h1, hw1, enc, hc]
      · intro j
        simp only [Log.step, Verif.step, h1]
        split
        · exact Or.inl ⟨hw', by rw [hw1]; exact hc, by simp⟩
        · exact weak j
      · exact ⟨hg.1, fun hb => hg.2 (he hb)⟩
    · obtain ⟨h2, h3, -⟩ := step_bad hU (op := .str s) rfl hw.state hw.ansi hw.buffer hg
      refine Or.inr ⟨h2, ?_, ?_⟩
      · simp [Log.step, h3, Sink.abandon]
      · intro j
        simp only [Log.step]
        split
        · exact Or.inr (by rw [h3]; rfl)
        · exact hx j
  · obtain ⟨h1, h2, h3⟩ := dead_step hU (w := x.ws i) (.str s) hd
    refine Or.inr ⟨h3 (by simp), ?_, ?_⟩
    · simp [Log.step, h1]
    · intro j
      simp only [Log.step]
      split
      · exact Or.inr h2
      · exact hx j

theorem log_lines (hU : TextLaws U) {cs : List (Nat × List Char)} : ∀ {x : Log} {b : Bool}, (∀ i, LineWriter (x.ws i) b) →
    (∀ p ∈ cs, p.2.getLast? = some '\n') →
    (x.run U (strs cs)).text = x.text ++ (x.accepted U cs).flatMap (normChain U) ∧
    (∀ s ∈ x.accepted U cs, ∀ c ∈ s, okChar c = true) ∧
    (b = true → ∀ s ∈ (x.accepted U cs).head?, Good U true (.str s)) := by
  induction cs with
  | nil => intro x b _ _; simp [strs, Log.run, Log.accepted]
  | cons p cs ih =>
    intro x b hx hl
    obtain ⟨i, s⟩ := p
    have hl' : ∀ p ∈ cs, p.2.getLast? = some '\n' := fun p h => hl p (by simp [h])
    simp only [strs, List.map_cons, Log.run, Log.accepted]
    rcases log_line hU hx i (hl (i, s) (by simp)) with ⟨h1, h2, h3, h4⟩ | ⟨h1, h2, h3⟩
    · obtain ⟨e1, e2, -⟩ := ih h3 hl'
      simp only [strs] at e1
      rw [if_pos h1, e1, h2]
      refine ⟨by simp, ?_, ?_⟩
      · intro t ht
        rcases List.mem_cons.1 ht with rfl | ht
        · exact h4.1
        · exact e2 t ht
      · rintro rfl t ht
        simp at ht
        subst ht
        exact h4
    · obtain ⟨e1, e2, e3⟩ := ih h3 hl'
      simp only [strs] at e1
      rw [if_neg (by rw [h1]; simp), e1, h2]
      exact ⟨rfl, e2, e3⟩

theorem accepted_sub {x : Log} {cs : List (Nat × List Char)} : ∀ s ∈ x.accepted U cs, ∃ i, (i, s) ∈ cs := by
  induction cs generalizing x with
  | nil => simp [Log.accepted]
  | cons p cs ih =>
    intro s hs
    simp only [Log.accepted] at hs
    split at hs
    · rcases List.mem_cons.1 hs with rfl | hs
      · exact ⟨p.1, by simp⟩
      · obtain ⟨i, h⟩ := ih s hs; exact ⟨i, by simp [h]⟩
    · obtain ⟨i, h⟩ := ih s hs; exact ⟨i, by simp [h]⟩

/-- Whole lines one behind the other are normalized line by line. -/
theorem normChain_flatten (hU : TextLaws U) {ss : List (List Char)} (h : ∀ s ∈ ss, s.getLast? = some '\n') :
    ss.flatMap (normChain U) = normChain U ss.flatten := by
  induction ss with
  | nil => rfl
  | cons s ss ih =>
    rw [List.flatMap_cons, List.flatten_cons, normChain_lines hU (h s (by simp)), ih fun t ht => h t (by simp [ht])]

/-- What a writer does depends on its own calls only. -/
theorem log_own (x : Log) (i : Nat) (cs : List (Nat × Op)) :
    (x.run U cs).ws i = run U (x.ws i) ((cs.filter fun p => p.1 == i).map (·.2)) := by
  induction cs generalizing x with
  | nil => rfl
  | cons p cs ih =>
    obtain ⟨j, op⟩ := p
    rw [Log.run, ih]
    by_cases h : j = i
    · subst h; simp [Log.step, run]
    · have h' : i ≠ j := fun e => h e.symm
      simp [Log.step, h, h']

/-! ## Calls of any kind -/

/-- The string that a call writes is whole lines; a `TextSubstr` is valid by its type. -/
def Op.Lines (U : Ucd) : Op → Prop
  | .str s => s.getLast? = some '\n'
  | .text s => isBasicTextSubstr U s = true ∧ s.getLast? = some '\n'
  | .bytes b => ∃ s, b = encode s ∧ s.getLast? = some '\n'
  | _ => True

/-- The calls that succeeded, in their order. -/
def Log.taken (U : Ucd) (x : Log) : List (Nat × Op) → List Op
  | [] => []
  | (i, op) :: cs =>
    let r := x.step U i op
    if r.2 = .ok then op :: Log.taken U r.1 cs else Log.taken U r.1 cs

theorem said_lines (hU : TextLaws U) {op : Op} (hl : op.Lines U) (hw : op.isWrite = true) : (said U op).getLast? = some '\n' := by
  cases op with
  | str s => exact (last_normChain_nl hU).2 hl
  | text s => exact hl.2
  | bytes b =>
    obtain ⟨s, rfl, h⟩ := hl
    have := decodePrefix_encode s [] rfl
    rw [List.append_nil] at this
    simp only [said, this]
    exact (last_normChain_nl hU).2 h
  | _ => simp [Op.isWrite] at hw

theorem said_substr (hU : TextLaws U) {op : Op} (hl : op.Lines U) (hc : Clean op) : isBasicTextSubstr U (said U op) = true := by
  cases op with
  | str s => exact substr_iff.2 ⟨ok_normChain hU fun c h => Or.inl (hc c h), normChain_nss hU _⟩
  | text s => exact hl.1
  | bytes b => exact substr_iff.2 ⟨ok_normChain hU fun c h => Or.inl (hc.1 c h), normChain_nss hU _⟩
  | _ => exact substr_iff.2 ⟨by simp [said], nss_nil⟩

theorem ground_lines (hU : TextLaws U) {op : Op} (hl : op.Lines U) (hw : op.isWrite = true) : groundNext U .newline op = .newline := by
  have h := said_lines hU hl hw
  have hn : said U op ≠ [] := by intro e; rw [e] at h; simp at h
  cases op with
  | text s => simp only [said] at h; simp [groundNext, groundAfter, h]
  | str s => simp only [groundNext, groundFrom, if_neg hn, groundAfter, h]; simp
  | bytes b => simp only [groundNext, groundFrom, if_neg hn, groundAfter, h]; simp
  | _ => simp [Op.isWrite] at hw

theorem log_call (hU : TextLaws U) {x : Log} {b : Bool} (hx : ∀ i, LineWriter (x.ws i) b) (i : Nat) {op : Op} (hl : op.Lines U) :
    ((x.step U i op).2 = .ok ∧ (x.step U i op).1.text = x.text ++ said U op ∧ Clean op ∧ op.isWrite = true ∧
      (∀ j, LineWriter ((x.step U i op).1.ws j) false) ∧ Good U b op) ∨
    ((op.isWrite = false ∨ (x.step U i op).2 ≠ .ok) ∧ (x.step U i op).1.text = x.text ∧
      ∀ j, LineWriter ((x.step U i op).1.ws j) b) := by
  have weak : ∀ j, LineWriter (x.ws j) false := fun j => (hx j).imp (fun h => ⟨h.1, h.2.1, by simp⟩) id
  rcases hx i with ⟨hw, hc, he⟩ | hd
  · cases ho : op.isWrite with
    | true =>
      by_cases hg : Good U (x.ws i).expectStarter op
      · have h := step_good hU ho hw.state hw.buffer hw.dead hw.script hg
        rw [ground_lines hU hl ho] at h
        refine Or.inl ⟨by simp [Log.step, h], ?_, hg.1, rfl, ?_, ⟨hg.1, fun hb => hg.2 (he hb)⟩⟩
        · simp [Log.step, h, enc, hc]
        · intro j
          simp only [Log.step, h]
          split
          · exact Or.inl ⟨⟨rfl, hw.buffer, hw.ansi, hw.dead, hw.script⟩, hc, by simp⟩
          · exact weak j
      · obtain ⟨h2, h3, -⟩ := step_bad hU ho hw.state hw.ansi hw.buffer hg
        refine Or.inr ⟨Or.inr (by simp [Log.step, h2]), ?_, ?_⟩
        · simp [Log.step, h3, Sink.abandon]
        · intro j
          simp only [Log.step]
          split
          · exact Or.inr (by rw [h3]; rfl)
          · exact hx j
    | false =>
      refine Or.inr ⟨Or.inl rfl, ?_⟩
      cases op with
      | str s => simp [Op.isWrite] at ho
      | text s => simp [Op.isWrite] at ho
      | bytes s => simp [Op.isWrite] at ho
      | flush =>
        have h : Verif.step U (x.ws i) .flush = ({ x.ws i with expectStarter := true }, .ok) := by
          simp [Verif.step, flush, hw.state, Sink.flush, hw.dead, hw.script]
        refine ⟨by simp [Log.step, h], fun j => ?_⟩
        simp only [Log.step, h]
        split
        · exact Or.inl ⟨⟨hw.state, hw.buffer, hw.ansi, hw.dead, hw.script⟩, hc, fun _ => rfl⟩
        · exact hx j
      | close =>
        have h : (Verif.step U (x.ws i) .close).1.sink = { (x.ws i).sink with dead := true } := by
          simp [Verif.step, close, checkNl, hw.state, Sink.close, Sink.flush, hw.dead, hw.script]
        refine ⟨by simp [Log.step, h], fun j => ?_⟩
        simp only [Log.step]
        split
        · exact Or.inr (by rw [h])
        · exact hx j
      | abandon =>
        refine ⟨by simp [Log.step, Verif.step, abandon, Sink.abandon], fun j => ?_⟩
        simp only [Log.step]
        split
        · exact Or.inr rfl
        · exact hx j
  · obtain ⟨h1, h2, h3⟩ := dead_step hU (w := x.ws i) op hd
    refine Or.inr ⟨?_, by simp [Log.step, h1], fun j => ?_⟩
    · by_cases ha : op = .abandon
      · subst ha; exact Or.inl rfl
      · exact Or.inr (by simp [Log.step, h3 ha])
    · simp only [Log.step]
      split
      · exact Or.inr h2
      · exact hx j

/-- Text after whole lines. -/
theorem substr_after_nl (hU : TextLaws U) {a b : List Char} (ha : isBasicTextSubstr U a = true) (hb : isBasicTextSubstr U b = true)
    (hn : a = [] ∨ a.getLast? = some '\n') : isBasicTextSubstr U (a ++ b) = true := by
  rcases List.eq_nil_or_concat a with rfl | ⟨y, c, rfl⟩
  · exact hb
  · rw [List.concat_eq_append] at *
    simp at hn
    subst hn
    obtain ⟨a1, a2⟩ := substr_iff.1 ha
    obtain ⟨b1, b2⟩ := substr_iff.1 hb
    refine substr_iff.2 ⟨fun c hc => (List.mem_append.1 hc).elim (a1 c) (b1 c), ?_⟩
    rw [List.append_assoc, List.singleton_append]
    exact (nss_inert hU.law (inert_lf hU)).2 ⟨nss_prefix hU.law a2, b2⟩

/-- What the log is at any time: `b` if nothing has been accepted. -/
structure GoodLog (U : Ucd) (x : Log) (b : Bool) : Prop where
  ws : ∀ i, LineWriter (x.ws i) b
  empty : b = true ↔ x.text = []
  valid : isBasicTextSubstr U x.text = true
  lines : x.text = [] ∨ x.text.getLast? = some '\n'
  head : ∀ c ∈ x.text.head?, isStart U c = true

theorem goodLog_step (hU : TextLaws U) {x : Log} {b : Bool} (hx : GoodLog U x b) (i : Nat) {op : Op} (hl : op.Lines U) :
    (∃ b', GoodLog U (x.step U i op).1 b') ∧
      (x.step U i op).1.text = x.text ++ if (x.step U i op).2 = .ok then said U op else [] := by
  rcases log_call hU hx.ws i hl with ⟨h1, h2, h3, h4, h5, h6⟩ | ⟨h1, h2, h3⟩
  · refine ⟨⟨false, ?_⟩, by rw [h2, if_pos h1]⟩
    have hs := said_lines hU hl h4
    refine ⟨h5, ?_, ?_, ?_, ?_⟩
    · rw [h2]
      have : said U op ≠ [] := by intro e; rw [e] at hs; simp at hs
      simp [this]
    · rw [h2]; exact substr_after_nl hU hx.valid (said_substr hU hl h3) hx.lines
    · right; rw [h2, List.getLast?_append, hs]; rfl
    · rw [h2]
      cases ht : x.text with
      | cons c t =>
        have := hx.head
        rw [ht] at this
        simpa using this
      | nil => 
        exact fun c hc => h6.2 (hx.empty.2 ht) c hc
  · refine ⟨⟨b, h3, ?_, ?_, ?_, ?_⟩, ?_⟩
    · rw [h2]; exact hx.empty
    · rw [h2]; exact hx.valid
    · rw [h2]; exact hx.lines
    · rw [h2]; exact hx.head
    · rw [h2]
      split
      · rename_i h
        have : op.isWrite = false := h1.resolve_right (by simp [h])
        cases op <;> simp [Op.isWrite, said] at this ⊢
      · simp

theorem goodLog_run (hU : TextLaws U) {cs : List (Nat × Op)} : ∀ {x : Log} {b : Bool}, GoodLog U x b → (∀ p ∈ cs, p.2.Lines U) →
    (∃ b', GoodLog U (x.run U cs) b') ∧ (x.run U cs).text = x.text ++ (x.taken U cs).flatMap (said U) := by
  induction cs with
  | nil => intro x b hx _; exact ⟨⟨b, hx⟩, by simp [Log.run, Log.taken]⟩
  | cons p cs ih =>
    intro x b hx hl
    obtain ⟨i, op⟩ := p
    obtain ⟨⟨b', h1⟩, h2⟩ := goodLog_step hU hx i (hl (i, op) (by simp))
    obtain ⟨h3, h4⟩ := ih h1 fun q hq => hl q (by simp [hq])
    refine ⟨h3, ?_⟩
    rw [Log.run, h4, h2, Log.taken]
    by_cases ho : (x.step U i op).2 = .ok
    · simp [ho]
    · simp [ho]

end Verif
