import Verif.Writer
import Verif.ChainTheory

/-!
# Invariants of the writer
-/

namespace Verif
open Ucd
variable {U : Ucd}

/-! ## Checking -/

theorem check_sub : (checkChar SUB).isSome = true := by decide +kernel
theorem check_esc : checkChar ESC = none := by decide +kernel

theorem okChar_check {c : Char} : okChar c = true ↔ checkChar c = none ∧ c ≠ ESC := by
  simp [okChar]

theorem categorize_id {s : List Char} (h : ∀ c ∈ s, checkChar c = none) : categorize s = s := by
  unfold categorize
  rw [List.map_congr_left (g := id)]
  · simp
  · intro c hc; simp [h c hc]

theorem sub_mem_categorize {s : List Char} {c : Char} (hc : c ∈ s) (h : (checkChar c).isSome = true) : SUB ∈ categorize s := by
  simp only [categorize, List.mem_map]
  exact ⟨c, hc, by simp [h]⟩

theorem normChain_keeps (hU : TextLaws U) {b : Char} (hb : b.toNat ≤ 0x20) {s : List Char} (h : b ∈ s) : b ∈ normChain U s := by
  obtain ⟨x, y, rfl⟩ := List.append_of_mem h
  have hc : b ≠ CGJ := by rintro rfl; exact absurd hb (by decide)
  rw [normChain_split hU (hU.ctl_inert b hb) (by simp [isAssigned, hU.assigned_ascii b (by omega)]) hc]
  simp

theorem check_normChain (hU : TextLaws U) : ∀ (n : Nat) (s : List Char), s.length ≤ n → (∀ c ∈ s, checkChar c = none) →
    ∀ c ∈ normChain U s, checkChar c = none := by
  intro n
  induction n with
  | zero =>
    intro s hs _ c hc
    have : s = [] := List.length_eq_zero_iff.1 (by omega)
    subst this; simp [normChain_nil] at hc
  | succ n ih =>
    intro s hs h c hc
    by_cases he : ESC ∈ s
    · obtain ⟨x, y, rfl⟩ := List.append_of_mem he
      rw [normChain_split hU (hU.ctl_inert ESC (by decide)) (by simp [isAssigned, hU.assigned_ascii ESC (by decide)]) (by decide)] at hc
      simp only [List.length_append, List.length_cons] at hs
      simp only [List.mem_append, List.mem_cons] at hc h
      rcases hc with hc | rfl | hc
      · exact ih x (by omega) (fun d hd => h d (Or.inl hd)) c hc
      · exact check_esc
      · exact ih y (by omega) (fun d hd => h d (Or.inr (Or.inr hd))) c hc
    · have := ok_normChain hU (s := s) (fun d hd => Or.inl (okChar_check.2 ⟨h d hd, fun hc => he (hc ▸ hd)⟩)) c hc
      exact (okChar_check.1 this).1

/-! ## The state machine -/

/-- The part of a color sequence that is held back. -/
def pend (w : Writer) : List Char :=
  match w.state with
  | .ground _ => []
  | _ => w.seq

/-- The held-back sequence is `ESC` or `ESC [ params`, and only in color mode. -/
def SeqOk (w : Writer) : Prop :=
  match w.state with
  | .ground _ => True
  | .esc => w.seq = [ESC] ∧ w.ansi = true
  | .csi => (∃ ps, (∀ p ∈ ps, between 0x20 0x3f p = true) ∧ w.seq = ESC :: '[' :: ps) ∧ w.ansi = true

/-- Text made of allowed scalars, U+D U+A pairs in CRLF mode, and complete color sequences in color mode. -/
inductive Items (crlf ansi : Bool) : List Char → Prop
  | nil : Items crlf ansi []
  | char (s : List Char) (c : Char) : Items crlf ansi s → okChar c = true → Items crlf ansi (s ++ [c])
  | newline (s : List Char) : Items crlf ansi s → crlf = true → Items crlf ansi (s ++ ['\r', '\n'])
  | color (s ps : List Char) : Items crlf ansi s → ansi = true → (∀ p ∈ ps, between 0x20 0x3f p = true) →
    Items crlf ansi (s ++ (ESC :: '[' :: ps ++ ['m']))

theorem Items.append {crlf ansi : Bool} {a b : List Char} (ha : Items crlf ansi a) (hb : Items crlf ansi b) : Items crlf ansi (a ++ b) := by
  induction hb with
  | nil => simpa
  | char s c _ hc ih => rw [← List.append_assoc]; exact .char _ _ ih hc
  | newline s _ hc ih => rw [← List.append_assoc]; exact .newline _ ih hc
  | color s ps _ hc hp ih => rw [← List.append_assoc]; exact .color _ _ ih hc hp

theorem items_of_ok {crlf ansi : Bool} {s : List Char} (h : ∀ c ∈ s, okChar c = true) : Items crlf ansi s := by
  rcases List.eq_nil_or_concat s with rfl | ⟨s, c, rfl⟩
  · exact .nil
  · rw [List.concat_eq_append] at *
    exact .char _ _ (items_of_ok fun d hd => h d (by simp [hd])) (h c (by simp))
termination_by s.length
decreasing_by subst_vars; simp

/-- Everything but the buffer, the state and the sequence is the same. -/
structure Same (w w' : Writer) : Prop where
  sink : w'.sink = w.sink
  crlf : w'.crlf = w.crlf
  ansi : w'.ansi = w.ansi
  expect : w'.expectStarter = w.expectStarter

theorem Same.refl (w : Writer) : Same w w := ⟨rfl, rfl, rfl, rfl⟩
theorem Same.trans {a b c : Writer} (h : Same a b) (h' : Same b c) : Same a c :=
  ⟨h'.sink.trans h.sink, h'.crlf.trans h.crlf, h'.ansi.trans h.ansi, h'.expect.trans h.expect⟩

/-- What a failed operation leaves behind. -/
structure Failed (w w' : Writer) : Prop where
  sink : w'.sink = w.sink.abandon
  state : w'.state = .ground .newline
  crlf : w'.crlf = w.crlf
  ansi : w'.ansi = w.ansi

theorem fail_failed (w : Writer) : Failed w w.fail := ⟨rfl, rfl, rfl, rfl⟩

theorem Same.failed {a b c : Writer} (h : Same a b) (h' : Failed b c) : Failed a c :=
  ⟨by rw [h'.sink, h.sink], h'.state, h'.crlf.trans h.crlf, h'.ansi.trans h.ansi⟩

theorem putChar_ok {rej : Bool} {w w' : Writer} {c : Char} (h : putChar rej w c = (w', .ok)) :
    Same w w' ∧ w'.buffer ++ pend w' = w.buffer ++ pend w ++ [c] ∧ c ≠ SUB := by
  unfold putChar at h
  split at h
  · rename_i g hg
    split at h
    · split at h
      · simp at h; rw [← h]; rename_i hc _; refine ⟨⟨rfl, rfl, rfl, rfl⟩, ?_, ?_⟩
        · simp [pend, hg, hc]
        · rw [hc]; decide
      · simp at h
    · split at h
      · simp at h; rw [← h]; rename_i hc; refine ⟨⟨rfl, rfl, rfl, rfl⟩, ?_, ?_⟩
        · simp [pend, hg]
        · rw [hc]; decide
      · split at h
        · cases rej <;> simp at h
        · simp at h; rw [← h]; rename_i hc; exact ⟨⟨rfl, rfl, rfl, rfl⟩, by simp [pend, hg], hc⟩
  · rename_i hs
    split at h
    · simp at h; rw [← h]; rename_i hc; refine ⟨⟨rfl, rfl, rfl, rfl⟩, by simp [pend, hs], ?_⟩
      rw [hc]; decide
    · simp at h
  · rename_i hs
    split at h
    · simp at h; rw [← h]; rename_i hc; refine ⟨⟨rfl, rfl, rfl, rfl⟩, by simp [pend, hs], ?_⟩
      rintro rfl; exact absurd hc (by decide)
    · split at h
      · simp at h; rw [← h]; rename_i hc; refine ⟨⟨rfl, rfl, rfl, rfl⟩, by simp [pend, hs], ?_⟩
        rw [hc]; decide
      · simp at h

theorem putChar_not_ok {rej : Bool} {w w' : Writer} {c : Char} {o : Out} (h : putChar rej w c = (w', o)) (ho : o ≠ .ok) :
    Failed w w' ∧ (o = .panic → c = SUB ∧ rej = false) := by
  unfold putChar at h
  split at h <;> (repeat' split at h) <;> simp only [Prod.mk.injEq] at h <;> obtain ⟨rfl, rfl⟩ := h <;>
    first
    | exact absurd rfl ho
    | (refine ⟨fail_failed _, ?_⟩; simp [*])

theorem putChar_items {rej : Bool} {w w' : Writer} {c : Char} (h : putChar rej w c = (w', .ok)) (hc : checkChar c = none)
    (hs : SeqOk w) (hi : Items w.crlf w.ansi w.buffer) : SeqOk w' ∧ Items w'.crlf w'.ansi w'.buffer := by
  unfold putChar at h
  split at h
  · rename_i g hg
    split at h
    · split at h
      · simp at h; rw [← h]; rename_i ha; exact ⟨⟨rfl, ha⟩, hi⟩
      · simp at h
    · rename_i hne
      have hok := okChar_check.2 ⟨hc, hne⟩
      split at h
      · simp at h; rw [← h]; exact ⟨trivial, .char _ _ hi hok⟩
      · split at h
        · cases rej <;> simp at h
        · simp at h; rw [← h]; exact ⟨trivial, .char _ _ hi hok⟩
  · rename_i hst
    unfold SeqOk at hs
    rw [hst] at hs
    split at h
    · rename_i hc; simp at h; rw [← h]; exact ⟨⟨⟨[], by simp, by simp [hs.1, hc]⟩, hs.2⟩, hi⟩
    · simp at h
  · rename_i hst
    unfold SeqOk at hs
    rw [hst] at hs
    obtain ⟨⟨ps, hp, he⟩, ha⟩ := hs
    split at h
    · rename_i hb
      simp at h; rw [← h]
      refine ⟨?_, hi⟩
      unfold SeqOk
      simp only [hst]
      refine ⟨⟨ps ++ [c], ?_, by simp [he]⟩, ha⟩
      intro p hp'
      rcases List.mem_append.1 hp' with h | h
      · exact hp p h
      · rw [List.mem_singleton.1 h]; exact hb
    · split at h
      · rename_i hm
        simp at h; rw [← h]
        refine ⟨trivial, ?_⟩
        simp only [he, hm]
        exact .color _ _ hi ha hp
      · simp at h

theorem putAll_ok {rej : Bool} : ∀ {l : List Char} {w w' : Writer}, putAll rej w l = (w', .ok) →
    Same w w' ∧ w'.buffer ++ pend w' = w.buffer ++ pend w ++ l ∧ SUB ∉ l := by
  intro l
  induction l with
  | nil => intro w w' h; simp [putAll] at h; rw [← h]; exact ⟨.refl _, by simp, by simp⟩
  | cons c l ih =>
    intro w w' h
    unfold putAll at h
    split at h
    · rename_i w1 h1
      obtain ⟨a1, a2, a3⟩ := putChar_ok h1
      obtain ⟨b1, b2, b3⟩ := ih h
      refine ⟨a1.trans b1, by rw [b2, a2]; simp, ?_⟩
      simp only [List.mem_cons, not_or]
      exact ⟨fun h => a3 h.symm, b3⟩
    · rename_i h1; rw [h] at h1; exact absurd rfl (h1 w')

theorem putAll_not_ok {rej : Bool} : ∀ {l : List Char} {w w' : Writer} {o : Out}, putAll rej w l = (w', o) → o ≠ .ok →
    Failed w w' ∧ (o = .panic → SUB ∈ l ∧ rej = false) := by
  intro l
  induction l with
  | nil => intro w w' o h ho; simp [putAll] at h; exact absurd h.2.symm ho
  | cons c l ih =>
    intro w w' o h ho
    unfold putAll at h
    split at h
    · rename_i w1 h1
      obtain ⟨a1, -, -⟩ := putChar_ok h1
      obtain ⟨b1, b2⟩ := ih h ho
      exact ⟨a1.failed b1, fun hp => ⟨List.mem_cons_of_mem _ (b2 hp).1, (b2 hp).2⟩⟩
    · obtain ⟨a1, a2⟩ := putChar_not_ok h ho
      exact ⟨a1, fun hp => ⟨by rw [(a2 hp).1]; simp, (a2 hp).2⟩⟩

theorem putAll_items {rej : Bool} : ∀ {l : List Char} {w w' : Writer}, putAll rej w l = (w', .ok) → (∀ c ∈ l, checkChar c = none) →
    SeqOk w → Items w.crlf w.ansi w.buffer → SeqOk w' ∧ Items w'.crlf w'.ansi w'.buffer := by
  intro l
  induction l with
  | nil => intro w w' h _ hs hi; simp [putAll] at h; rw [← h]; exact ⟨hs, hi⟩
  | cons c l ih =>
    intro w w' h hc hs hi
    unfold putAll at h
    split at h
    · rename_i w1 h1
      obtain ⟨a, b⟩ := putChar_items h1 (hc c (by simp)) hs hi
      exact ih h (fun d hd => hc d (by simp [hd])) a b
    · rename_i h1; rw [h] at h1; exact absurd rfl (h1 w')

theorem quick_normChain' (hU : TextLaws U) {s : List Char} (h : U.quick s = .yes) (ha : s.all U.assigned = true) : normChain U s = s := by
  apply normChain_of_assigned hU
  · simp [isNfcStreamSafe, h]
  · intro c hc
    simp [isAssigned, List.all_eq_true.1 ha c hc]

theorem stateMachine_clean (hU : TextLaws U) {s : List Char} (h : ∀ c ∈ s, checkChar c = none) (w : Writer) :
    stateMachine U w s = putAll false w (normChain U s) := by
  have hr : (s.any fun c => (checkChar c).isSome) = false := by
    rw [List.any_eq_false]; intro c hc; simp [h c hc]
  unfold stateMachine
  simp only [hr, categorize_id h]
  split
  · rename_i hq; rw [quick_normChain' hU hq.1 hq.2]
  · rfl

theorem stateMachine_bad (hU : TextLaws U) {s : List Char} {c : Char} (hc : c ∈ s) (h : (checkChar c).isSome = true) (w : Writer) :
    (stateMachine U w s).2 = .err ∧ Failed w (stateMachine U w s).1 := by
  have hr : (s.any fun c => (checkChar c).isSome) = true := List.any_eq_true.2 ⟨c, hc, h⟩
  have hm := sub_mem_categorize hc h
  have key : ∀ l : List Char, SUB ∈ l → (putAll true w l).2 = .err ∧ Failed w (putAll true w l).1 := by
    intro l hl
    generalize hp : putAll true w l = p
    obtain ⟨w', o⟩ := p
    have ho : o ≠ .ok := by rintro rfl; exact (putAll_ok hp).2.2 hl
    obtain ⟨f1, f2⟩ := putAll_not_ok hp ho
    cases o with
    | ok => exact absurd rfl ho
    | err => exact ⟨rfl, f1⟩
    | panic => exact absurd (f2 rfl).2 (by simp)
  unfold stateMachine
  simp only [hr]
  split
  · exact key _ hm
  · exact key _ (normChain_keeps hU (by decide) hm)

/-- Everything about `state_machine`. -/
theorem stateMachine_ok (hU : TextLaws U) {s : List Char} {w w' : Writer} (h : stateMachine U w s = (w', .ok)) :
    (∀ c ∈ s, checkChar c = none) ∧ putAll false w (normChain U s) = (w', .ok) := by
  have hs : ∀ c ∈ s, checkChar c = none := by
    intro c hc
    cases hx : checkChar c with
    | none => rfl
    | some e =>
      have := (stateMachine_bad hU hc (by simp [hx]) w).1
      rw [h] at this; simp at this
  exact ⟨hs, by rw [← stateMachine_clean hU hs, h]⟩

theorem stateMachine_not_ok (hU : TextLaws U) {s : List Char} {w w' : Writer} {o : Out} (h : stateMachine U w s = (w', o)) (ho : o ≠ .ok) :
    o = .err ∧ Failed w w' := by
  by_cases hs : ∀ c ∈ s, checkChar c = none
  · rw [stateMachine_clean hU hs] at h
    obtain ⟨f1, f2⟩ := putAll_not_ok h ho
    cases o with
    | ok => exact absurd rfl ho
    | err => exact ⟨rfl, f1⟩
    | panic =>
      have hsub := mem_normChain_inert hU (hU.ctl_inert SUB (by decide)) (by decide) (f2 rfl).1
      have := hs SUB hsub
      have h2 := check_sub
      rw [this] at h2; simp at h2
  · simp only [Classical.not_forall] at hs
    obtain ⟨c, hc, hx⟩ := hs
    have hx' : (checkChar c).isSome = true := by
      cases hy : checkChar c with
      | none => exact absurd hy hx
      | some e => rfl
    have := stateMachine_bad hU hc hx' w
    rw [h] at this
    exact this

/-! ## One write -/

/-- Filling the buffer, the first half of every write. -/
def prepStr (U : Ucd) (w : Writer) (s : List Char) : Writer × Out :=
  if w.crlf then crlfLoop U w (splitNl s) else stateMachine U w s

/-- Filling the buffer, the first half of `write_text_substr`. -/
def prepText (w : Writer) (s : List Char) : Writer :=
  if w.crlf then crlfTextLoop w (splitNl s) else { w with buffer := w.buffer ++ s, state := .ground (groundAfter s) }

theorem writeStr_eq (U : Ucd) (w : Writer) (s : List Char) : writeStr U w s =
    match prepStr U w s with
    | (w, .ok) => writeBuffer U w
    | r => r := rfl

theorem writeText_eq (U : Ucd) (w : Writer) (s : List Char) : writeText U w s = writeBuffer U (prepText w s) := rfl

/-- What a buffer-writing step that succeeds does. -/
structure Sent (U : Ucd) (w w' : Writer) : Prop where
  sent : w'.sink.sent = w.sink.sent ++ w.buffer
  alive : w.sink.dead = false
  alive' : w'.sink.dead = false
  buffer : w'.buffer = []
  expect : w'.expectStarter = false
  state : w'.state = w.state
  seq : w'.seq = w.seq
  crlf : w'.crlf = w.crlf
  ansi : w'.ansi = w.ansi
  start : w.expectStarter = true → ∀ c, w.buffer.head? = some c → isStart U c = true
  script : w'.sink.script = w.sink.script.drop 1

/-- What a failing write leaves behind: a prefix of the buffer may have gone out, nothing more ever will. -/
structure Broken (w w' : Writer) : Prop where
  sent : ∃ p x, w.buffer = p ++ x ∧ w'.sink.sent = w.sink.sent ++ p ∧ (w.sink.dead = true → p = []) ∧ (w.sink.script = [] → p = [])
  dead : w'.sink.dead = true
  state : w'.state = .ground .newline
  crlf : w'.crlf = w.crlf
  ansi : w'.ansi = w.ansi

theorem writeBuffer_cases (U : Ucd) (w : Writer) :
    (∃ w', writeBuffer U w = (w', .ok) ∧ Sent U w w') ∨ (∃ w', writeBuffer U w = (w', .err) ∧ Broken w w') := by
  unfold writeBuffer
  simp only
  split
  · exact Or.inr ⟨_, rfl, ⟨⟨[], w.buffer, by simp, by simp [Writer.fail, Writer.reset, Sink.abandon]⟩, rfl, rfl, rfl, rfl⟩⟩
  · rename_i hb
    have hst : w.expectStarter = true → ∀ c, w.buffer.head? = some c → isStart U c = true := by
      intro he c hc
      simpa [he, hc] using hb
    unfold Sink.writeStr
    cases hd : w.sink.dead with
    | true =>
      simp only [if_true]
      exact Or.inr ⟨_, rfl, ⟨⟨[], w.buffer, by simp, by simp [Writer.fail, Writer.reset, Sink.abandon]⟩, rfl, rfl, rfl, rfl⟩⟩
    | false =>
      simp only [Bool.false_eq_true, if_false]
      cases hs : w.sink.script with
      | nil => exact Or.inl ⟨_, rfl, ⟨rfl, hd, rfl, rfl, rfl, rfl, rfl, rfl, rfl, hst, by simp [hs]⟩⟩
      | cons e r =>
        cases e with
        | ok => exact Or.inl ⟨_, rfl, ⟨rfl, hd, rfl, rfl, rfl, rfl, rfl, rfl, rfl, hst, by simp [hs]⟩⟩
        | fail n =>
          exact Or.inr ⟨_, rfl, ⟨⟨w.buffer.take n, w.buffer.drop n, by simp, rfl, by simp [hd], by simp [hs]⟩, rfl, rfl, rfl, rfl⟩⟩

/-- A live sink that never fails takes the buffer unless the text must start properly and does not. -/
theorem writeBuffer_ok_iff {w : Writer} (hd : w.sink.dead = false) (hs : w.sink.script = []) :
    (writeBuffer U w).2 = .ok ↔ (w.expectStarter = true → ∀ c, w.buffer.head? = some c → isStart U c = true) := by
  constructor
  · intro h
    rcases writeBuffer_cases U w with ⟨w', hw, hS⟩ | ⟨w', hw, -⟩
    · exact hS.start
    · rw [hw] at h; simp at h
  · intro h
    unfold writeBuffer
    simp only
    rw [if_neg]
    · simp [Sink.writeStr, hd, hs]
    · cases he : w.expectStarter with
      | false => simp
      | true =>
        cases hh : w.buffer.head? with
        | none => simp
        | some c => simp [h he c hh]

/-! ### Slices -/

theorem splitNl_ne (s : List Char) : splitNl s ≠ [] := by
  cases s with
  | nil => simp [splitNl]
  | cons c s =>
    unfold splitNl
    split
    · simp
    · split <;> simp

theorem splitNl_nl (s : List Char) : ∀ x ∈ splitNl s, '\n' ∉ x := by
  induction s with
  | nil => simp [splitNl]
  | cons c s ih =>
    intro x hx
    unfold splitNl at hx
    split at hx
    · rcases List.mem_cons.1 hx with rfl | hx
      · simp
      · exact ih x hx
    · rename_i hc
      split at hx
      · rename_i y ys hy
        rw [hy] at ih
        rcases List.mem_cons.1 hx with rfl | hx
        · simp only [List.mem_cons, not_or]
          exact ⟨fun h => hc h.symm, ih y (by simp)⟩
        · exact ih x (by simp [hx])
      · rename_i hy; exact absurd hy (splitNl_ne s)

theorem splitNl_mem (s : List Char) : ∀ x ∈ splitNl s, ∀ c ∈ x, c ∈ s := by
  induction s with
  | nil => simp [splitNl]
  | cons c s ih =>
    intro x hx d hd
    unfold splitNl at hx
    split at hx
    · rcases List.mem_cons.1 hx with rfl | hx
      · simp at hd
      · exact List.mem_cons_of_mem _ (ih x hx d hd)
    · split at hx
      · rename_i y ys hy
        rw [hy] at ih
        rcases List.mem_cons.1 hx with rfl | hx
        · rcases List.mem_cons.1 hd with rfl | hd
          · simp
          · exact List.mem_cons_of_mem _ (ih y (by simp) d hd)
        · exact List.mem_cons_of_mem _ (ih x (by simp [hx]) d hd)
      · rename_i hy; exact absurd hy (splitNl_ne s)

/-- The slices put together again with `sep` between them. -/
def joinNl (sep : List Char) : List (List Char) → List Char
  | [] => []
  | [x] => x
  | x :: y :: ys => x ++ sep ++ joinNl sep (y :: ys)

theorem joinNl_splitNl (s : List Char) : joinNl ['\n'] (splitNl s) = s := by
  induction s with
  | nil => simp [splitNl, joinNl]
  | cons c s ih =>
    unfold splitNl
    split
    · rename_i hc
      cases hs : splitNl s with
      | nil => exact absurd hs (splitNl_ne s)
      | cons y ys => rw [joinNl, ← hs, ih, hc]; rfl
    · split
      · rename_i y ys hy
        rw [hy] at ih
        cases ys with
        | nil => simp only [joinNl] at *; rw [ih]
        | cons z zs => simp only [joinNl] at *; rw [← ih]; simp
      · rename_i hy; exact absurd hy (splitNl_ne s)

/-- Newlines as U+D U+A. -/
def toCrlf (s : List Char) : List Char := s.flatMap fun c => if c = '\n' then ['\r', '\n'] else [c]

theorem toCrlf_append (a b : List Char) : toCrlf (a ++ b) = toCrlf a ++ toCrlf b := by simp [toCrlf]
theorem toCrlf_nil : toCrlf [] = [] := rfl

theorem toCrlf_id {s : List Char} (h : '\n' ∉ s) : toCrlf s = s := by
  induction s with
  | nil => rfl
  | cons c s ih =>
    simp only [List.mem_cons, not_or] at h
    have := ih h.2
    unfold toCrlf at *
    rw [List.flatMap_cons, this, if_neg (fun hc => h.1 hc.symm)]; rfl

theorem joinNl_crlf (s : List Char) : joinNl ['\r', '\n'] (splitNl s) = toCrlf s := by
  conv => rhs; rw [← joinNl_splitNl s]
  have h := splitNl_nl s
  generalize splitNl s = l at *
  induction l with
  | nil => rfl
  | cons x xs ih =>
    cases xs with
    | nil => simp only [joinNl]; rw [toCrlf_id (h x (by simp))]
    | cons y ys =>
      simp only [joinNl] at *
      rw [toCrlf_append, toCrlf_append, toCrlf_id (h x (by simp)), ← ih (fun z hz => h z (by simp [hz]))]
      rfl

/-! ### Filling the buffer -/

/-- Putting a U+D U+A on the buffer. -/
def Writer.crlfNl (w : Writer) : Writer := { w with state := .ground .newline, buffer := w.buffer ++ ['\r', '\n'] }

theorem crlfNl_same (w : Writer) : Same w w.crlfNl := ⟨rfl, rfl, rfl, rfl⟩

theorem crlfRest_cons (w : Writer) (x : List Char) (xs : List (List Char)) : crlfRest U w (x :: xs) =
    match stateMachine U w.crlfNl x with
    | (w, .ok) => crlfRest U w xs
    | r => r := rfl

theorem crlfLoop_cons (w : Writer) (x : List Char) (xs : List (List Char)) : crlfLoop U w (x :: xs) =
    match stateMachine U w x with
    | (w, .ok) => crlfRest U w xs
    | r => r := rfl

theorem crlfRest_ok (hU : TextLaws U) : ∀ {l : List (List Char)} {w w' : Writer}, crlfRest U w l = (w', .ok) →
    Same w w' ∧ (∀ x ∈ l, ∀ c ∈ x, checkChar c = none) ∧
    (w.crlf = true → SeqOk w → Items w.crlf w.ansi w.buffer → SeqOk w' ∧ Items w'.crlf w'.ansi w'.buffer) := by
  intro l
  induction l with
  | nil => intro w w' h; simp [crlfRest] at h; rw [← h]; exact ⟨.refl _, by simp, fun _ h1 h2 => ⟨h1, h2⟩⟩
  | cons x xs ih =>
    intro w w' h
    rw [crlfRest_cons] at h
    split at h
    · rename_i w1 h1
      obtain ⟨b1, b2, b3⟩ := ih h
      obtain ⟨a1, a2⟩ := stateMachine_ok hU h1
      have hs := (putAll_ok a2).1
      refine ⟨(crlfNl_same w).trans (hs.trans b1), ?_, ?_⟩
      · intro y hy
        rcases List.mem_cons.1 hy with rfl | hy
        · exact a1
        · exact b2 y hy
      · intro hc hq hi
        have hcr : w1.crlf = true := by rw [hs.crlf]; exact hc
        obtain ⟨c1, c2⟩ := putAll_items a2 (check_normChain hU _ _ (Nat.le_refl _) a1) (w := w.crlfNl) trivial (.newline _ hi hc)
        exact b3 hcr c1 c2
    · rename_i h1; rw [h] at h1; exact absurd rfl (h1 w')

theorem crlfRest_not_ok (hU : TextLaws U) : ∀ {l : List (List Char)} {w w' : Writer} {o : Out}, crlfRest U w l = (w', o) → o ≠ .ok →
    o = .err ∧ Failed w w' := by
  intro l
  induction l with
  | nil => intro w w' o h ho; simp [crlfRest] at h; exact absurd h.2.symm ho
  | cons x xs ih =>
    intro w w' o h ho
    rw [crlfRest_cons] at h
    split at h
    · rename_i w1 h1
      obtain ⟨b1, b2⟩ := ih h ho
      obtain ⟨a1, a2⟩ := stateMachine_ok hU h1
      exact ⟨b1, (crlfNl_same w).failed ((putAll_ok a2).1.failed b2)⟩
    · obtain ⟨a1, a2⟩ := stateMachine_not_ok hU h ho
      exact ⟨a1, (crlfNl_same w).failed a2⟩

theorem mem_joinNl {l : List (List Char)} {c : Char} (h : c ∈ joinNl ['\n'] l) : c = '\n' ∨ ∃ x ∈ l, c ∈ x := by
  induction l with
  | nil => simp [joinNl] at h
  | cons x xs ih =>
    cases xs with
    | nil => exact Or.inr ⟨x, by simp, by simpa [joinNl] using h⟩
    | cons y ys =>
      simp only [joinNl, List.mem_append, List.mem_singleton] at h
      rcases h with (h | h) | h
      · exact Or.inr ⟨x, by simp, h⟩
      · exact Or.inl h
      · rcases ih h with h | ⟨z, hz, h⟩
        · exact Or.inl h
        · exact Or.inr ⟨z, by simp [hz], h⟩

theorem check_nl : checkChar '\n' = none := by decide +kernel

theorem check_of_splitNl {s : List Char} (h : ∀ x ∈ splitNl s, ∀ c ∈ x, checkChar c = none) : ∀ c ∈ s, checkChar c = none := by
  intro c hc
  rw [← joinNl_splitNl s] at hc
  rcases mem_joinNl hc with rfl | ⟨x, hx, hc⟩
  · exact check_nl
  · exact h x hx c hc

theorem prepStr_ok (hU : TextLaws U) {s : List Char} {w w' : Writer} (h : prepStr U w s = (w', .ok)) :
    Same w w' ∧ (∀ c ∈ s, checkChar c = none) ∧
    (SeqOk w → Items w.crlf w.ansi w.buffer → SeqOk w' ∧ Items w'.crlf w'.ansi w'.buffer) := by
  unfold prepStr at h
  split at h
  · rename_i hcr
    cases hs : splitNl s with
    | nil => exact absurd hs (splitNl_ne s)
    | cons x xs =>
      rw [hs] at h
      rw [crlfLoop_cons] at h
      split at h
      · rename_i w1 h1
        obtain ⟨a1, a2⟩ := stateMachine_ok hU h1
        have hS := (putAll_ok a2).1
        obtain ⟨b1, b2, b3⟩ := crlfRest_ok hU h
        refine ⟨hS.trans b1, check_of_splitNl ?_, ?_⟩
        · rw [hs]
          intro y hy
          rcases List.mem_cons.1 hy with rfl | hy
          · exact a1
          · exact b2 y hy
        · intro hq hi
          obtain ⟨c1, c2⟩ := putAll_items a2 (check_normChain hU _ _ (Nat.le_refl _) a1) hq hi
          exact b3 (by rw [hS.crlf]; exact hcr) c1 c2
      · rename_i h1; rw [h] at h1; exact absurd rfl (h1 w')
  · obtain ⟨a1, a2⟩ := stateMachine_ok hU h
    exact ⟨(putAll_ok a2).1, a1, fun hq hi => putAll_items a2 (check_normChain hU _ _ (Nat.le_refl _) a1) hq hi⟩

theorem prepStr_not_ok (hU : TextLaws U) {s : List Char} {w w' : Writer} {o : Out} (h : prepStr U w s = (w', o)) (ho : o ≠ .ok) :
    o = .err ∧ Failed w w' := by
  unfold prepStr at h
  split at h
  · cases hs : splitNl s with
    | nil => exact absurd hs (splitNl_ne s)
    | cons x xs =>
      rw [hs] at h
      rw [crlfLoop_cons] at h
      split at h
      · rename_i w1 h1
        obtain ⟨a1, a2⟩ := stateMachine_ok hU h1
        obtain ⟨b1, b2⟩ := crlfRest_not_ok hU h ho
        exact ⟨b1, (putAll_ok a2).1.failed b2⟩
      · exact stateMachine_not_ok hU h ho
  · exact stateMachine_not_ok hU h ho

theorem groundAfter_append (a : List Char) {b : List Char} (h : b ≠ []) : groundAfter (a ++ b) = groundAfter b := by
  unfold groundAfter
  rw [List.getLast?_append]
  cases hb : b.getLast? with
  | none => exact absurd (List.getLast?_eq_none_iff.1 hb) h
  | some c => simp

theorem groundAfter_nl (a : List Char) : groundAfter (a ++ ['\n']) = .newline := by
  rw [groundAfter_append _ (by simp)]; rfl

theorem crlfTextRest_eq : ∀ (l : List (List Char)) (w : Writer) (x : List Char), w.state = .ground (groundAfter x) →
    ∃ y, crlfTextRest w l = { w with buffer := w.buffer ++ y, state := .ground (groundAfter (joinNl ['\n'] (x :: l))) } ∧
      x ++ y = joinNl ['\r', '\n'] (x :: l) := by
  intro l
  induction l with
  | nil => intro w x h; exact ⟨[], by simp [crlfTextRest, joinNl, ← h], by simp [joinNl]⟩
  | cons z zs ih =>
    intro w x h
    unfold crlfTextRest
    obtain ⟨y, hy, hj⟩ := ih { w with buffer := w.buffer ++ ['\r', '\n'] ++ z, state := .ground (groundAfter z) } z rfl
    refine ⟨['\r', '\n'] ++ z ++ y, ?_, ?_⟩
    · rw [hy]
      simp only [List.append_assoc, joinNl]
      congr 2
      rw [← List.append_assoc]
      cases hz : joinNl ['\n'] (z :: zs) with
      | nil => rw [List.append_nil, groundAfter_nl]; rfl
      | cons a as => rw [groundAfter_append _ (by simp)]
    · simp only [joinNl, List.append_assoc]; rw [hj]

theorem prepText_eq (w : Writer) (s : List Char) : prepText w s =
    { w with buffer := w.buffer ++ (if w.crlf then toCrlf s else s), state := .ground (groundAfter s) } := by
  unfold prepText
  split
  · cases hs : splitNl s with
    | nil => exact absurd hs (splitNl_ne s)
    | cons x xs =>
      simp only [crlfTextLoop]
      obtain ⟨y, hy, hj⟩ := crlfTextRest_eq xs { w with buffer := w.buffer ++ x, state := .ground (groundAfter x) } x rfl
      rw [hy]
      simp only [List.append_assoc]
      rw [hj, ← hs, joinNl_crlf, joinNl_splitNl]
  · rfl

theorem items_toCrlf {ansi : Bool} {s : List Char} (h : ∀ c ∈ s, okChar c = true) : Items true ansi (toCrlf s) := by
  rcases List.eq_nil_or_concat s with rfl | ⟨s, c, rfl⟩
  · exact .nil
  · rw [List.concat_eq_append] at *
    rw [toCrlf_append]
    have := items_toCrlf (ansi := ansi) (s := s) fun d hd => h d (by simp [hd])
    by_cases hc : c = '\n'
    · subst hc; exact .newline _ this rfl
    · rw [toCrlf_id (s := [c]) (by simpa using fun h => hc h.symm)]
      exact .char _ _ this (h c (by simp))
termination_by s.length
decreasing_by subst_vars; simp

theorem prepText_items {w : Writer} {s : List Char} (hs : ∀ c ∈ s, okChar c = true) (hi : Items w.crlf w.ansi w.buffer) :
    SeqOk (prepText w s) ∧ Items (prepText w s).crlf (prepText w s).ansi (prepText w s).buffer := by
  rw [prepText_eq]
  refine ⟨trivial, hi.append ?_⟩
  cases hc : w.crlf with
  | true => exact items_toCrlf hs
  | false => exact items_of_ok hs

end Verif
