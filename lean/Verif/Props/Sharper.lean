import Verif.Props.CutPlaces
import Verif.Props.Writer
import Verif.Props.Everyday
import Verif.RepeatTheory

/-!
# More exact forms (C13, C32, C61, C83)
-/

namespace Verif
open Ucd Spec

/-! ## C32 -/

/-- The first of the calls that writes, if there is one, does not write nothing. -/
def Spec.FirstWrite (ops : List Op) : Prop := ∀ op ∈ ops.find? Op.isWrite, op.src ≠ []

theorem first_run {base : List Char} {ops : List Op} : ∀ {w : Writer}, (∀ op ∈ ops, op.Ok ucd15) → FirstWrite ops →
    Safe base w → w.ansi = false → w.expectStarter = true →
    ∃ d, Delta w (run ucd15 w ops) d ∧ ∀ c ∈ d.head?, isStart ucd15 c = true := by
  induction ops with
  | nil => intro w _ _ _ _ _; exact ⟨[], by simp [Delta, run], by simp⟩
  | cons op ops ih =>
    intro w ho hne h ha he
    have h1 := ho op (by simp)
    have ho' : ∀ o ∈ ops, o.Ok ucd15 := fun o h => ho o (by simp [h])
    have hop : op.isWrite = true → op.src ≠ [] := fun hw => hne op (by simp [hw])
    obtain ⟨d, hd1, hd2, hd3⟩ := start_step textLaws15 h1 hop h ha he
    by_cases hd : d = []
    · subst hd
      have key : op.isWrite = false ∧ (step ucd15 w op).1.expectStarter = true ∨ (step ucd15 w op).1.sink.dead = true := by
        rcases hd3 rfl with h3 | h3
        · cases hw : op.isWrite with
          | false => exact Or.inl ⟨rfl, h3⟩
          | true =>
            rcases write_cases textLaws15 hw w with ⟨p, w', hl, hs, hS⟩ | ⟨p, w', hl, hs, hB⟩ | ⟨w', hl, hs, hF⟩
            · rw [hs] at h3; exact absurd h3 (by rw [hS.expect]; simp)
            · rw [hs]; exact Or.inr hB.dead
            · rw [hs]; right; show w'.sink.dead = true; rw [hF.sink]; rfl
        · exact Or.inr h3
      rcases key with ⟨hw, h3⟩ | h3
      · obtain ⟨d', h4, h5⟩ := ih (w := (step ucd15 w op).1) ho' (by simpa [FirstWrite, hw] using hne)
          (safe_step textLaws15 h1 h) (by rw [(step_mode textLaws15 h1 w).2]; exact ha) h3
        refine ⟨d', ?_, h5⟩
        unfold Delta at *
        rw [run, h4, hd1]; simp
      · refine ⟨[], ?_, by simp⟩
        have := dead_delta textLaws15 h3 ops
        unfold Delta at *
        rw [run, this, hd1]; simp
    · obtain ⟨d', h4⟩ := run_delta textLaws15 (ops := ops) (w := (step ucd15 w op).1) ho'
      refine ⟨d ++ d', ?_, ?_⟩
      · unfold Delta at *
        rw [run, h4, hd1]; simp
      · intro c hc
        apply hd2
        cases d with
        | nil => exact absurd rfl hd
        | cons x d => simpa using hc

/-- C32, sharper: only the first write must not be empty; whatever comes then. -/
theorem c32_first_write_partial (w : Writer) (hw : Fresh w) (ha : w.ansi = false) (ops : List Op) (ho : ∀ op ∈ ops, op.Ok ucd15) (hne : FirstWrite ops) :
    ∃ T, (run ucd15 w ops).sink.sent = w.sink.sent ++ T ∧ ∀ c ∈ T.head?, isStart ucd15 c = true :=
  first_run ho hne hw.safe ha hw.expect

/-- C32, sharper, after a flush that succeeded, whatever came before it. -/
theorem c32_first_after_flush_partial (w : Writer) (hw : Fresh w) (ha : w.ansi = false) (ops ops' : List Op) (ho : ∀ op ∈ ops, op.Ok ucd15)
    (ho' : ∀ op ∈ ops', op.Ok ucd15) (hf : (step ucd15 (run ucd15 w ops) .flush).2 = .ok) (hne : FirstWrite ops') :
    ∃ T, (run ucd15 w (ops ++ .flush :: ops')).sink.sent = (run ucd15 w ops).sink.sent ++ T ∧ ∀ c ∈ T.head?, isStart ucd15 c = true := by
  have hs := safe_run textLaws15 ho hw.safe
  have hm := run_mode textLaws15 (w := w) ho
  have hs' := safe_step (op := .flush) textLaws15 trivial hs
  have hm' := step_mode (op := .flush) textLaws15 trivial (run ucd15 w ops)
  have hflush : (flush (run ucd15 w ops)).1.expectStarter = true ∧ (flush (run ucd15 w ops)).1.sink.sent = (run ucd15 w ops).sink.sent := by
    change (flush (run ucd15 w ops)).2 = .ok at hf
    rcases flush_cases (run ucd15 w ops) with ⟨h, -⟩ | ⟨h, -⟩ | ⟨-, h⟩ <;> rw [h] at hf ⊢
    · simp at hf
    · simp at hf
    · exact ⟨rfl, (sink_flush_sent _).1⟩
  obtain ⟨T, h1, h2⟩ := first_run ho' hne hs' (by rw [hm'.2, hm.2]; exact ha) hflush.1
  refine ⟨T, ?_, h2⟩
  rw [run_append]
  show (run ucd15 (step ucd15 (run ucd15 w ops) .flush).1 ops').sink.sent = _
  rw [h1]
  congr 1
  exact hflush.2

/-- C32: after an empty write the check is off altogether: on a sink that does not fail, any text whatever without forbidden scalars goes out. -/
theorem c32_disarmed (w : Writer) (hw : Fresh w) (hd : w.sink.dead = false) (hs : w.sink.script = []) (s : List Char)
    (h : ∀ c ∈ s, okChar c = true) :
    results ucd15 w [.str [], .str s] = [.ok, .ok] ∧ (run ucd15 w [.str [], .str s]).sink.sent = w.sink.sent ++ enc w.crlf (normChain ucd15 s) := by
  have hn : normChain ucd15 [] = [] := by decide +kernel
  have h1 := step_good textLaws15 (op := .str []) rfl hw.state hw.buffer hd hs ⟨by simp [Clean], by simp [said, hn]⟩
  have h2 := step_good textLaws15 (op := .str s) rfl (w := (step ucd15 w (.str [])).1) (by rw [h1]) (by rw [h1]; exact hw.buffer)
    (by rw [h1]; exact hd) (by rw [h1]; exact hs) ⟨h, by rw [h1]; simp⟩
  constructor
  · simp only [results]; rw [h2, h1]
  · simp only [run]; rw [h2, h1]
    simp [said, hn, enc, toCrlf]

example : FirstWrite [.flush, .str ['a'], .str [], .str ['\u0301']] ∧ ¬ FirstWrite [.str [], .str ['a']] := by
  constructor <;> simp [FirstWrite, Op.isWrite, Op.src]

/-! ## C83 -/

/-- C83, exactly: lossy conversion to `TextString` returns its argument if and only if that is Basic Text in which every unassigned scalar comes
directly after a U+34F, and no read but the last ends between such a U+34F and the next one or a newline. -/
theorem c83_lossy_same_exact (chunks : List (List Char)) (last : List Char) (hb : SliceReads chunks last) (lens : Nat → Nat)
    (hl : ∀ i, normalizationBufferSize ≤ lens i) :
    Converts chunks last lens (chunks.flatten ++ last) ↔
      fromText (isBasicText ucd15) (chunks.flatten ++ last) = .ok (chunks.flatten ++ last) ∧ Preceded ucd15 (chunks.flatten ++ last) ∧
      ∀ i, i < chunks.length → ¬ EndsInside ucd15 (chunks.flatten ++ last) (chunks.take (i + 1)).flatten := by
  constructor
  · intro h
    have hv := (c83_lossy_same_iff_partial chunks last hb lens hl).1 h
    exact ⟨hv, (c02_lossy_fixes_iff _ hv chunks last rfl hb lens _ h).1 rfl⟩
  · rintro ⟨hv, h⟩
    obtain ⟨t, ht, -⟩ := c01_lossy_total_valid chunks last hb lens hl
    have := (c02_lossy_fixes_iff _ hv chunks last rfl hb lens t ht).2 h
    rwa [this] at ht

example : SliceReads [['\u034f', '\u0378', '\u034f', 'a']] ['\n'] ∧
    fromText (isBasicText ucd15) ['\u034f', '\u0378', '\u034f', 'a', '\n'] = .ok ['\u034f', '\u0378', '\u034f', 'a', '\n'] ∧
    Preceded ucd15 ['\u034f', '\u0378', '\u034f', 'a', '\n'] :=
  ⟨Or.inl (by simp), by decide +kernel, (isolate_fix textLaws15 _).1 (by decide +kernel)⟩

/-! ## C13 -/

/-- C13 for `TextSubstr`, exactly: a substring repeated at least twice is a substring if and only if twice is, and it contains a scalar whose
decomposition has a starter or has no more than 30 nonstarters with all its repetitions. -/
theorem c13_repeat_substr_iff (s : List Char) (n : Nat) (hn : 2 ≤ n) :
    isBasicTextSubstr ucd15 (repeatText s n) = true ↔ isBasicTextSubstr ucd15 (repeatText s 2) = true ∧
      ((∃ c ∈ s, ucd15.lead c ≠ ucd15.dlen c) ∨ n * (s.map ucd15.dlen).sum ≤ 30) := by
  rw [substr_repeat_iff lawful15 s n hn, show repeatText s 2 = s ++ s by simp [repeatText, List.replicate_succ]]
  rfl

/-- So a substring that may be repeated 31 times may be repeated any number of times. -/
theorem c13_repeat_substr_31 (s : List Char) (h : isBasicTextSubstr ucd15 (repeatText s 31) = true) (n : Nat) :
    isBasicTextSubstr ucd15 (repeatText s n) = true := by
  obtain ⟨h1, h2⟩ := (c13_repeat_substr_iff s 31 (by omega)).1 h
  have hle : ∀ m, m ≤ 31 → isBasicTextSubstr ucd15 (repeatText s m) = true := by
    intro m hm
    have : repeatText s 31 = repeatText s m ++ repeatText s (31 - m) := by
      unfold repeatText
      rw [← List.flatten_append, List.replicate_append_replicate, show m + (31 - m) = 31 by omega]
    exact substr_infix textLaws15 (p := []) (q := repeatText s (31 - m)) (by rw [List.nil_append, ← this]; exact h)
  by_cases hn : n ≤ 31
  · exact hle n hn
  · refine (c13_repeat_substr_iff s n (by omega)).2 ⟨h1, ?_⟩
    rcases h2 with h2 | h2
    · exact Or.inl h2
    · right
      have : (s.map ucd15.dlen).sum = 0 := by omega
      rw [this]; omega

example : isBasicTextSubstr ucd15 (repeatText ['\u0301'] 30) = true ∧ isBasicTextSubstr ucd15 (repeatText ['\u0301'] 31) = false ∧
    isBasicTextSubstr ucd15 (repeatText ['\u0301', 'a'] 2) = false ∧ isBasicTextSubstr ucd15 (repeatText ['\u0301', 'b'] 31) = true ∧
    ucd15.lead 'b' ≠ ucd15.dlen 'b' := by
  decide +kernel

/-- C61, exactly: `TextStr::from_text` accepts a string if and only if it is in Basic Text form but for two things: it may end with
U+0890 or U+0891, and its unassigned scalars need not be isolated. -/
theorem c61_accepted_iff (s : List Char) : fromText (isBasicText ucd15) s = .ok s ↔
    BasicSubstring s ∧ (∀ c ∈ s.head?, ¬ NonStarter c) ∧ ∀ c ∈ s.getLast?, ¬ NonEnder c ∨ c = '࢐' ∨ c = '࢑' := by
  constructor
  · intro h
    obtain ⟨h3, h4, h5⟩ := text_iff.1 (fromText_ok_iff.1 h).1
    refine ⟨substring_iff.2 h5, fun c hc hn => ?_, fun c hc => ?_⟩
    · have := h3 c hc
      rw [nonStarter_iff.1 hn] at this; simp at this
    · by_cases h1 : c = '࢐'
      · exact .inr (.inl h1)
      · by_cases h2 : c = '࢑'
        · exact .inr (.inr h2)
        · refine .inl fun hn => ?_
          have := h4 c hc
          rw [(c56_end_partial c h1 h2).2 hn] at this; simp at this
  · rintro ⟨h1, h2, h3⟩
    refine fromText_ok_iff.2 ⟨text_iff.2 ⟨fun c hc => ?_, fun c hc => ?_, substring_iff.1 h1⟩, rfl⟩
    · cases hq : isStart ucd15 c with
      | true => rfl
      | false => exact absurd (nonStarter_iff.2 hq) (h2 c hc)
    · rcases h3 c hc with h | rfl | rfl
      · by_cases h1 : c = '࢐'
        · subst h1; decide +kernel
        · by_cases h2 : c = '࢑'
          · subst h2; decide +kernel
          · cases hq : isEnd c with
            | true => rfl
            | false => exact absurd ((c56_end_partial c h1 h2).1 hq) h
      · decide +kernel
      · decide +kernel

example : fromText (isBasicText ucd15) ['a', '࢐'] = .ok ['a', '࢐'] ∧ fromText (isBasicText ucd15) ['a', '‍'] ≠ .ok ['a', '‍'] := by
  constructor <;> decide +kernel

end Verif
