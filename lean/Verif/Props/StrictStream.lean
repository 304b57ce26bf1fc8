import Verif.StrictStream
import Verif.Props.Exact
import Verif.Props.Writer

/-!
# C105: writing is the document's strict stream conversion
-/

namespace Verif
open Ucd Spec

/-- The document's strict stream conversion (`docs/BasicText.md:241-250`, with the strict string conversion it performs, `:203-219`)
succeeds with `t`; `bom` and `crlf` are the options *BOM Compatibility* and *CRLF Compatibility*.  The steps are in the order of the
document. -/
def DocStrictStream (bom crlf : Bool) (s t : List Char) : Prop :=
  let s := if bom then BOM :: s else s
  (s = [] ∨ s.getLast? = some '\n' ∨ s.getLast? = some '\r') ∧
  (∀ c ∈ s.head?, ¬ NonStarter c) ∧ (∀ c ∈ s.getLast?, ¬ NonEnder c) ∧ (∀ q, q <:+: s → ¬ TableSeq q) ∧
  ∃ d, CanonicalDecomposition ucd15 (ucd15.streamSafe 0 (Spec.isolate ucd15 (if crlf then s.flatMap fun c => if c = '\n' then ['\r', '\n'] else [c] else s))) d ∧
    t = composeAll ucd15 d

/-- A new writer without or with CRLF Compatibility. -/
def newWriter (crlf : Bool) (k : Sink) : Writer := if crlf then .newCrlf k else .new k

/-- Writing the strings one after the other and closing the writer all succeeds, and adds `t` to what the inner stream got. -/
def WritesAs (w : Writer) (ps : List (List Char)) (t : List Char) : Prop :=
  (∀ o ∈ results ucd15 w (ps.map .str ++ [.close]), o = .ok) ∧ (run ucd15 w (ps.map .str ++ [.close])).sink.sent = w.sink.sent ++ t

theorem newWriter_idle (crlf : Bool) {k : Sink} (hd : k.dead = false) (hk : k.script = []) :
    WIdle (newWriter crlf k) ∧ (newWriter crlf k).crlf = crlf ∧ (newWriter crlf k).expectStarter = true := by
  cases crlf
  · exact ⟨idle_new hd hk, rfl, rfl⟩
  · exact ⟨idle_crlf hd hk, rfl, rfl⟩

theorem normalize_enc {crlf : Bool} {s : List Char} (hk : ∀ c ∈ s, okChar c = true) :
    Spec.normalize ucd15 (enc crlf s) = ucd15.nfc (ucd15.streamSafe 0 (Spec.isolate ucd15 (enc crlf s))) := by
  unfold Spec.normalize
  have hm : ∀ c ∈ Spec.isolate ucd15 (enc crlf s), c = '\r' ∨ okChar c = true := by
    intro c hc
    rcases mem_spec_isolate hc with h | h
    · unfold enc at h
      split at h
      · unfold toCrlf at h
        obtain ⟨d, hd, h⟩ := List.mem_flatMap.1 h
        split at h
        · simp at h
          rcases h with h | h
          · exact Or.inl h
          · subst h; exact Or.inr (by decide)
        · simp at h; subst h; exact Or.inr (hk _ hd)
      · exact Or.inr (hk c h)
    · subst h; exact Or.inr (by decide)
  have : ucd15.cjkVariants (Spec.isolate ucd15 (enc crlf s)) = Spec.isolate ucd15 (enc crlf s) := by
    unfold Ucd.cjkVariants
    generalize Spec.isolate ucd15 (enc crlf s) = l at hm
    induction l with
    | nil => rfl
    | cons c l ih =>
      rw [List.flatMap_cons, ih fun d hd => hm d (by simp [hd])]
      rcases hm c (by simp) with h | h
      · subst h
        rw [show ucd15.cjk '\r' = ['\r'] by decide +kernel]; rfl
      · have := flatMap_cjk (s := [c]) (by simpa using h)
        simp at this
        simp [this]
  rw [this]

theorem docStream_iff {crlf : Bool} {s t : List Char} : DocStrictStream false crlf s t ↔ (∀ c ∈ s, okChar c = true) ∧
    (∀ c ∈ s.head?, isStart ucd15 c = true) ∧ (s = [] ∨ s.getLast? = some '\n') ∧ t = Spec.normalize ucd15 (enc crlf s) := by
  have hstart : (∀ c ∈ s.head?, ¬ NonStarter c) ↔ ∀ c ∈ s.head?, isStart ucd15 c = true := by
    constructor
    · intro h c hc
      have := h c hc
      rw [nonStarter_iff] at this; simpa using this
    · intro h c hc
      rw [nonStarter_iff, h c hc]; simp
  unfold DocStrictStream
  simp only [Bool.false_eq_true, if_false]
  rw [hstart, seqs_iff, show (if crlf then s.flatMap fun c => if c = '\n' then ['\r', '\n'] else [c] else s) = enc crlf s from rfl]
  constructor
  · rintro ⟨h1, h4, h5, h3, d, hd, rfl⟩
    refine ⟨h3, h4, ?_, ?_⟩
    · rcases h1 with h | h | h
      · exact Or.inl h
      · exact Or.inr h
      · have := h3 '\r' (List.mem_of_getLast? h)
        exact absurd this (by decide)
    · rw [normalize_enc h3, nfc_spec lawful15, canonicalDecomposition_iff.1 hd]
  · rintro ⟨h3, h4, h5, rfl⟩
    refine ⟨h5.imp_right Or.inl, h4, ?_, h3, _, canonicalDecomposition_iff.2 rfl, ?_⟩
    · rcases h5 with rfl | h
      · simp
      · intro c hc
        rw [h] at hc
        cases hc
        intro hn
        have := (c56_end_partial '\n' (by decide) (by decide)).2 hn
        exact absurd this (by decide +kernel)
    · rw [normalize_enc h3, nfc_spec lawful15]

/-- What is written and what the document says, side by side. -/
theorem writes_iff (crlf : Bool) {k : Sink} (hd : k.dead = false) (hk : k.script = []) {ps : List (List Char)}
    (hl : (∀ p ∈ ps, p.getLast? = some '\n') ∨ ∃ s, ps = [s]) {t : List Char} :
    WritesAs (newWriter crlf k) ps t ↔ (∀ c ∈ ps.flatten, okChar c = true) ∧ (∀ c ∈ ps.flatten.head?, isStart ucd15 c = true) ∧
      (ps.flatten = [] ∨ ps.flatten.getLast? = some '\n') ∧ t = normChain ucd15 (enc crlf ps.flatten) := by
  obtain ⟨hw, hc, he⟩ := newWriter_idle crlf hd hk
  have key : ∀ {ps : List (List Char)}, (∀ p ∈ ps, p.getLast? = some '\n') → (WritesAs (newWriter crlf k) ps t ↔
      (∀ c ∈ ps.flatten, okChar c = true) ∧ (∀ c ∈ ps.flatten.head?, isStart ucd15 c = true) ∧ t = normChain ucd15 (enc crlf ps.flatten)) := by
    intro ps hl
    obtain ⟨h1, h2⟩ := lines_close textLaws15 hw hl
    rw [hc] at h2
    have hh : (∀ c ∈ (normChain ucd15 ps.flatten).head?, isStart ucd15 c = true) ↔ ∀ c ∈ ps.flatten.head?, isStart ucd15 c = true :=
      ⟨head_normChain_conv textLaws15 startLaws15, head_normChain textLaws15⟩
    unfold WritesAs
    rw [normChain_enc textLaws15]
    constructor
    · rintro ⟨ho, hs⟩
      have := h2 ho
      rw [hs] at this
      have h := h1.1 ho
      exact ⟨h.1, hh.1 (h.2 he), List.append_cancel_left this⟩
    · rintro ⟨h3, h4, rfl⟩
      have ho := h1.2 ⟨h3, fun _ => hh.2 h4⟩
      exact ⟨ho, h2 ho⟩
  have last : ∀ {ps : List (List Char)}, (∀ p ∈ ps, p.getLast? = some '\n') → ps.flatten = [] ∨ ps.flatten.getLast? = some '\n' := by
    intro ps hl
    rcases List.eq_nil_or_concat ps with rfl | ⟨qs, p, rfl⟩
    · exact Or.inl rfl
    · refine Or.inr ?_
      have := hl p (by simp)
      simp [List.getLast?_append, this]
  rcases hl with hl | ⟨s, rfl⟩
  · rw [key hl]
    have := last hl
    exact ⟨fun ⟨a, b, c⟩ => ⟨a, b, this, c⟩, fun ⟨a, b, _, c⟩ => ⟨a, b, c⟩⟩
  · by_cases hs : s = []
    · subst hs
      simp only [List.flatten_cons, List.flatten_nil, List.append_nil, List.head?_nil, List.not_mem_nil, Option.not_mem_none, false_implies, implies_true, true_and, true_or]
      have h := step_good textLaws15 (op := .str []) rfl hw.state hw.buffer hw.dead hw.script (by simp [Good, Clean, said, normChain_nil])
      have hst : groundNext ucd15 .newline (.str []) = .newline := rfl
      rw [hst] at h
      have hw' : WIdle (step ucd15 (newWriter crlf k) (.str [])).1 := by
        rw [h]; exact ⟨rfl, hw.buffer, hw.ansi, hw.dead, hw.script⟩
      have hcl := close_idle hw'
      have he0 : ∀ b, enc b [] = [] := by intro b; cases b <;> rfl
      unfold WritesAs
      have hsent : (step ucd15 (newWriter crlf k) (.str [])).1.sink.sent = (newWriter crlf k).sink.sent := by
        rw [h]; simp [said, normChain_nil, he0]
      have hcl1 := hcl.1
      have hcl2 := hcl.2
      rw [hsent] at hcl2
      have hok : (step ucd15 (newWriter crlf k) (.str [])).2 = .ok := by rw [h]
      simp only [List.map_cons, List.map_nil, List.cons_append, List.nil_append, results, run, List.mem_cons, List.not_mem_nil, or_false, forall_eq_or_imp, forall_eq, he0, normChain_nil]
      rw [hok, show ∀ w, step ucd15 w .close = close w from fun _ => rfl, hcl1, hcl2]
      simp
    · by_cases hl : s.getLast? = some '\n'
      · rw [key (by simpa using hl)]
        simp [hl]
      · have hn := open_close textLaws15 hw hs hl
        unfold WritesAs
        simp only [List.map_cons, List.map_nil, List.cons_append, List.nil_append]
        refine iff_of_false (fun h => hn h.1) ?_
        simp [hs, hl]

/-- C105 (what holds): writing a string and closing the writer is the document's strict stream conversion, with or without CRLF
Compatibility, unless U+34F stands directly before an unassigned scalar. -/
theorem c105_strict_stream_partial (crlf : Bool) (k : Sink) (hd : k.dead = false) (hk : k.script = []) (s t : List Char)
    (hn : ∀ a c b, s = a ++ CGJ :: c :: b → isAssigned ucd15 c = true) :
    WritesAs (newWriter crlf k) [s] t ↔ DocStrictStream false crlf s t := by
  rw [writes_iff crlf hd hk (Or.inr ⟨s, rfl⟩), docStream_iff]
  have hb : Balanced ucd15 s := by
    intro a u b e hu
    rw [hn a u b e] at hu; simp at hu
  rw [(normChain_iff textLaws15 _).2 ((balanced_enc textLaws15 crlf _).2 (show Balanced ucd15 [s].flatten by simpa using hb))]
  simp

/-- C105, in lines: it does not matter how many lines are written at a time. -/
theorem c105_lines_partial (crlf : Bool) (k : Sink) (hd : k.dead = false) (hk : k.script = []) (ps : List (List Char))
    (hl : ∀ p ∈ ps, p.getLast? = some '\n') (t : List Char)
    (hn : ∀ a c b, ps.flatten = a ++ CGJ :: c :: b → isAssigned ucd15 c = true) :
    WritesAs (newWriter crlf k) ps t ↔ DocStrictStream false crlf ps.flatten t := by
  rw [writes_iff crlf hd hk (Or.inl hl), docStream_iff]
  have hb : Balanced ucd15 ps.flatten := by
    intro a u b e hu
    rw [hn a u b e] at hu; simp at hu
  rw [(normChain_iff textLaws15 _).2 ((balanced_enc textLaws15 crlf _).2 hb)]

/-- C105, exactly: writing a string is the document's conversion (including whether it succeeds) if and only if the writer refuses the
string or the string is `Balanced`. -/
theorem c105_exact (crlf : Bool) (k : Sink) (hd : k.dead = false) (hk : k.script = []) (s : List Char) :
    (∀ t, WritesAs (newWriter crlf k) [s] t ↔ DocStrictStream false crlf s t) ↔
      (∀ t, ¬ WritesAs (newWriter crlf k) [s] t) ∨ Balanced ucd15 s := by
  have e : [s].flatten = s := by simp
  constructor
  · intro h
    by_cases hw : ∃ t, WritesAs (newWriter crlf k) [s] t
    · obtain ⟨t, ht⟩ := hw
      have h1 := (docStream_iff.1 ((h t).1 ht)).2.2.2
      have h2 := ((writes_iff crlf hd hk (Or.inr ⟨s, rfl⟩)).1 ht).2.2.2
      rw [e] at h2
      rw [h2] at h1
      exact Or.inr ((balanced_enc textLaws15 crlf s).1 ((normChain_iff textLaws15 _).1 h1))
    · exact Or.inl fun t ht => hw ⟨t, ht⟩
  · rintro (h | h) t
    · refine ⟨fun hw => absurd hw (h t), fun hx => ?_⟩
      obtain ⟨h1, h2, h3, -⟩ := docStream_iff.1 hx
      exact absurd ((writes_iff crlf hd hk (Or.inr ⟨s, rfl⟩)).2 ⟨by simpa [e] using h1, by simpa [e] using h2, by simpa [e] using h3, rfl⟩) (h _)
    · rw [writes_iff crlf hd hk (Or.inr ⟨s, rfl⟩), docStream_iff, e, (normChain_iff textLaws15 _).2 ((balanced_enc textLaws15 crlf s).2 h)]

/-- The document's conversion and the writer differ. -/
theorem c105_refuted : WritesAs (newWriter false goodSink) [['a', '͏', '͸', '\n']] ['a', '͏', '͸', '\n'] ∧
    ¬ DocStrictStream false false ['a', '͏', '͸', '\n'] ['a', '͏', '͸', '\n'] := by
  refine ⟨⟨by decide +kernel, by decide +kernel⟩, fun h => ?_⟩
  have := (docStream_iff.1 h).2.2.2
  exact absurd this (by decide +kernel)

/-- With BOM Compatibility, the steps of the document never succeed: they insert U+FEFF and then reject it. -/
theorem c105_document_bom (crlf : Bool) (s t : List Char) : ¬ DocStrictStream true crlf s t := by
  rintro ⟨-, -, -, h, -⟩
  have := (seqs_iff.1 h) BOM (by simp)
  exact absurd this (by decide)

/-- A writer with BOM Compatibility does what the document must mean: U+FEFF, and then the conversion without the option. -/
theorem c105_bom_partial (k : Sink) (hd : k.dead = false) (hk : k.script = []) (s t : List Char)
    (hn : ∀ a c b, s = a ++ CGJ :: c :: b → isAssigned ucd15 c = true) :
    ∃ w, Writer.newBom k = some w ∧ w.sink.sent = k.sent ++ [BOM] ∧ (WritesAs w [s] t ↔ DocStrictStream false false s t) := by
  have h : k.writeStr [BOM] = ({ k with sent := k.sent ++ [BOM] }, true) := by simp [Sink.writeStr, hd, hk]
  refine ⟨.new { k with sent := k.sent ++ [BOM] }, ?_, rfl, ?_⟩
  · simp [Writer.newBom, h]
  · exact c105_strict_stream_partial false { k with sent := k.sent ++ [BOM] } hd hk s t hn

/-- A text in decomposed form, with an unassigned scalar, in two lines. -/
example : WritesAs (newWriter true goodSink) [['e', '́', '\n'], ['͸', '\n']] ['é', '\r', '\n', '͏', '͸', '͏', '\r', '\n'] ∧
    ¬ WritesAs (newWriter true goodSink) [['a']] ['a'] ∧
    (∀ a c b, (['e', '́', '\n'] ++ ['͸', '\n']) = a ++ CGJ :: c :: b → isAssigned ucd15 c = true) ∧
    Balanced ucd15 ['e', '́', '\n', '͸', '\n'] ∧ ¬ Balanced ucd15 ['a', '͏', '͸', '\n'] ∧ goodSink.dead = false ∧ goodSink.script = [] := by
  refine ⟨⟨by decide +kernel, by decide +kernel⟩, fun h => absurd h.1 (by decide +kernel), ?_, by decide +kernel, by decide +kernel, rfl, rfl⟩
  intro a c b e
  have : CGJ ∈ ['e', '́', '\n'] ++ ['͸', '\n'] := by rw [e]; simp
  exact absurd this (by decide)

end Verif
