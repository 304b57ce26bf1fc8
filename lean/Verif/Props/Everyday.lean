import Verif.Props.Tables
import Verif.Props.Pieces
import Verif.LengthTheory
import Verif.HoldTheory
import Verif.Search

/-!
# C81–C87: ASCII, reading twice, what lossy conversion changes, sizes, searching, lines, promptness
-/

namespace Verif
open Ucd Spec

/-! ## C81 -/

/-- The ASCII scalars of Basic Text. -/
def Spec.Printable (c : Char) : Prop := c = '\n' ∨ c = '\t' ∨ (0x20 ≤ c.toNat ∧ c.toNat ≤ 0x7e)

instance (c : Char) : Decidable (Printable c) := inferInstanceAs (Decidable (_ ∨ _ ∨ _))

theorem printable_ascii {c : Char} (h : Printable c) : c.toNat ≤ 0x7f := by
  rcases h with rfl | rfl | h
  · decide
  · decide
  · omega

theorem ascii_table : ∀ n : Fin 128, okChar (Char.ofNat n.val) = decide (Printable (Char.ofNat n.val)) := by decide +kernel

theorem ok_ascii {c : Char} (h : c.toNat ≤ 0x7f) : okChar c = true ↔ Printable c := by
  have := ascii_table ⟨c.toNat, by omega⟩
  simp only [Char.ofNat_toNat] at this
  rw [this, decide_eq_true_iff]

theorem ascii_substr {s : List Char} (h : ∀ c ∈ s, c.toNat ≤ 0x7f) : isBasicTextSubstr ucd15 s = true ↔ ∀ c ∈ s, Printable c := by
  rw [substr_iff]
  constructor
  · exact fun hs c hc => (ok_ascii (h c hc)).1 (hs.1 c hc)
  · exact fun hs => ⟨fun c hc => (ok_ascii (h c hc)).2 (hs c hc), nss_ascii ucd15 h⟩

theorem ascii_text {s : List Char} (h : ∀ c ∈ s, c.toNat ≤ 0x7f) : isBasicText ucd15 s = true ↔ ∀ c ∈ s, Printable c := by
  rw [text_iff, ascii_substr h]
  constructor
  · exact fun hs => hs.2.2
  · exact fun hs => ⟨fun c hc => textLaws15.start_ascii c (h c (List.mem_of_mem_head? hc)),
      fun c hc => ascii_end (by have := h c (List.mem_of_mem_getLast? hc); omega), hs⟩

theorem ascii_assigned' {s : List Char} (h : ∀ c ∈ s, c.toNat ≤ 0x7f) : ∀ c ∈ s, isAssigned ucd15 c = true :=
  fun c hc => by rw [isAssigned, textLaws15.assigned_ascii c (h c hc)]; rfl

/-- C81: an ASCII string is Basic Text exactly if it consists of printable scalars, spaces, tabs and newlines; all four
checked conversions then return it as it is. -/
theorem c81_ascii_accepted (s : List Char) (h : ∀ c ∈ s, c.toNat ≤ 0x7f) :
    (fromText (isBasicText ucd15) s = .ok s ↔ ∀ c ∈ s, Printable c) ∧
    (fromText (isBasicTextSubstr ucd15) s = .ok s ↔ ∀ c ∈ s, Printable c) ∧
    ((∃ t, fromTextOwned ucd15 (isBasicText ucd15) s = .ok t) ↔ ∀ c ∈ s, Printable c) ∧
    ((∀ c ∈ s, Printable c) → fromTextOwned ucd15 (isBasicText ucd15) s = .ok s ∧ fromTextOwned ucd15 (isBasicTextSubstr ucd15) s = .ok s) := by
  have e1 : fromText (isBasicText ucd15) s = .ok s ↔ ∀ c ∈ s, Printable c := by
    rw [← ascii_text h, fromText_ok_iff]; simp
  refine ⟨e1, ?_, ?_, ?_⟩
  · rw [← ascii_substr h, fromText_ok_iff]; simp
  · constructor
    · intro ht
      have := (c05_owned_accepts s).1 ht
      exact fun c hc => (ok_ascii (h c hc)).1 (okChar_check.2 (this.1 c hc))
    · exact fun hp => (c06_owned_accepts_valid s (e1.2 hp)).1
  · intro hp
    have h1 := (c06_owned_accepts_valid s (e1.2 hp)).2 (ascii_assigned' h)
    refine ⟨h1, ?_⟩
    have := (owned_ok_iff isBasicText_nil).1 h1
    exact (owned_ok_iff isBasicTextSubstr_nil).2 this

/-- Printable ASCII reads as it is, with a newline added at the end if there was none, however it is split. -/
theorem c81_ascii_read (nel lsps : Bool) (chunks : List (List Char)) (last : List Char) (lens : List Nat)
    (hp : ∀ c ∈ chunks.flatten ++ last, Printable c) (h : Completes ucd15 nel lsps (script chunks last) lens) :
    output ucd15 nel lsps (script chunks last) lens = chunks.flatten ++ last ++
      if chunks.flatten ++ last = [] ∨ (chunks.flatten ++ last).getLast? = some '\n' then [] else ['\n'] := by
  have ha := fun c hc => printable_ascii (hp c hc)
  have hv := (ascii_text ha).2 hp
  split
  · rename_i hn
    rw [c18_reader_identity nel lsps chunks last lens hv (ascii_assigned' ha) hn h, List.append_nil]
  · rename_i hn
    simp only [not_or] at hn
    exact c18_reader_adds_newline nel lsps chunks last lens hv (ascii_assigned' ha) hn.1 hn.2 h

/-- Printable ASCII is written as it is, at any point of a stream; newlines become CR LF if the writer is so set. -/
theorem c81_ascii_written (w : Writer) (hw : Ready w) (s : List Char) (hp : ∀ c ∈ s, Printable c) :
    (step ucd15 w (.str s)).2 = .ok ∧ (step ucd15 w (.str s)).1.sink.sent = w.sink.sent ++ wire w.crlf s :=
  have ha := fun c hc => printable_ascii (hp c hc)
  c38_write_str_exact w hw s ((ascii_text ha).2 hp) (ascii_assigned' ha)

/-- An ASCII `TextStr` can be split anywhere. -/
theorem c81_ascii_split (s : List Char) (hp : ∀ c ∈ s, Printable c) (mid : Nat) (hm : mid ≤ s.length) :
    splitAt (isBasicText ucd15) s mid = some (s.take mid, s.drop mid) := by
  have hl : ∀ t : List Char, (∀ c ∈ t, Printable c) → (encode t).length = t.length := by
    intro t ht
    induction t with
    | nil => rfl
    | cons c t ih =>
      have hc := printable_ascii (ht c (by simp))
      rw [encode_cons, List.length_append, encodeChar_length, ih fun d hd => ht d (by simp [hd])]
      have : utf8Len c = 1 := by unfold utf8Len; rw [if_pos (by omega)]
      simp [this]; omega
  have h1 : ∀ c ∈ s.take mid, Printable c := fun c hc => hp c (List.mem_of_mem_take hc)
  have h2 : ∀ c ∈ s.drop mid, Printable c := fun c hc => hp c (List.mem_of_mem_drop hc)
  refine (c10_split_text s mid _ _).2 ⟨(List.take_append_drop _ _).symm, ?_, ?_, ?_⟩
  · rw [hl _ h1, List.length_take, Nat.min_eq_left hm]
  · exact ((c81_ascii_accepted _ fun c hc => printable_ascii (h1 c hc)).1).2 h1
  · exact ((c81_ascii_accepted _ fun c hc => printable_ascii (h2 c hc)).1).2 h2

/-- Appending ASCII text to any text, or any text to ASCII text, gives text. -/
theorem c81_ascii_push (a s : List Char) (ha : isBasicText ucd15 a = true) (hs : isBasicText ucd15 s = true)
    (h : (∀ c ∈ a, Printable c) ∨ ∀ c ∈ s, Printable c) : pushText a s = a ++ s ∧ isBasicText ucd15 (a ++ s) = true := by
  have hcg : ¬ Printable CGJ := by decide
  refine ⟨?_, (append_iff ha hs).2 ?_⟩
  · cases s with
    | nil => simp [pushText]
    | cons c r =>
      simp only [pushText]
      rw [if_neg]
      rintro ⟨rfl, hl⟩
      rcases h with h | h
      · exact hcg (h _ (List.mem_of_mem_getLast? hl))
      · exact hcg (h _ (by simp))
  · intro x hx c hc hj
    rcases h with h | h
    · have := printable_ascii (h x (List.mem_of_mem_getLast? hx))
      unfold HangulJoin at hj; omega
    · have := printable_ascii (h c (List.mem_of_mem_head? hc))
      unfold HangulJoin at hj; omega

example : (∀ c ∈ ['a', '\t', '~', '\n', ' '], Printable c) ∧ ¬ Printable '\x7f' ∧ ¬ Printable '\r' ∧ ¬ Printable '\x00' := by decide
example : Ready (.new goodSink) := ⟨⟨_, rfl⟩, rfl, rfl, rfl⟩
example : Completes ucd15 false false (script [['a'], ['\t', 'b']] ['\n', 'c']) [136, 136, 136] := completes_of (by decide +kernel)

/-! ## C82 -/

/-- C82 (what holds): reading what a reader delivered delivers it again, however it is split, if it has no unassigned
scalar. -/
theorem c82_read_twice_partial (nel lsps nel' lsps' : Bool) (src : List Event) (hs : ∀ e ∈ src, e ≠ .err) (lens lens' : List Nat)
    (h : Completes ucd15 nel lsps src lens) (ha : ∀ c ∈ output ucd15 nel lsps src lens, isAssigned ucd15 c = true)
    (chunks : List (List Char)) (last : List Char) (hc : chunks.flatten ++ last = output ucd15 nel lsps src lens)
    (h' : Completes ucd15 nel' lsps' (script chunks last) lens') :
    output ucd15 nel' lsps' (script chunks last) lens' = output ucd15 nel lsps src lens := by
  rw [← hc]
  rw [← hc] at ha
  refine c18_reader_identity nel' lsps' chunks last lens' ?_ ha ?_ h'
  · rw [hc]; exact (c14_reader_output_valid nel lsps src hs lens).2.2 h
  · rw [hc]
    obtain ⟨r, n, hr, hok⟩ := h
    unfold output
    rw [run_delivered textLaws15 nel lsps hs]
    exact (c15_reader_ends_newline nel lsps src lens r n hr hok).1

/-- With unassigned scalars, if both contents come in one piece, or the first has no U+34F directly before an unassigned scalar and the second comes in one piece. -/
theorem c82_read_twice_whole_partial (nel lsps nel' lsps' : Bool) (chunks : List (List Char)) (last : List Char) (hb : BomSafe chunks last)
    (hn : Clear ucd15 nel lsps (chunks.flatten ++ last)) (lens lens' : List Nat)
    (h : Completes ucd15 nel lsps (script chunks last) lens)
    (h' : Completes ucd15 nel' lsps' (script [] (output ucd15 nel lsps (script chunks last) lens)) lens') :
    output ucd15 nel' lsps' (script [] (output ucd15 nel lsps (script chunks last) lens)) lens' = output ucd15 nel lsps (script chunks last) lens := by
  have hs := no_err_in_script chunks last
  refine c18_reader_identity_isolated nel' lsps' _ lens' ((c14_reader_output_valid nel lsps _ hs lens).2.2 h)
    (c47_reader_isolated_partial nel lsps chunks last hb hn lens h) ?_ h'
  obtain ⟨r, n, hr, hok⟩ := h
  unfold output
  rw [run_delivered textLaws15 nel lsps hs]
  exact (c15_reader_ends_newline nel lsps _ lens r n hr hok).1

/-- In general it is not so: an isolated unassigned scalar read in pieces is isolated again. -/
theorem c82_refuted_cut : output ucd15 false false (script [] ['͸', '\n']) [136] = ['͏', '͸', '͏', '\n'] ∧
    Completes ucd15 false false (script [['͏']] ['͸', '͏', '\n']) [136, 136] ∧
    output ucd15 false false (script [['͏']] ['͸', '͏', '\n']) [136, 136] ≠ ['͏', '͸', '͏', '\n'] :=
  ⟨by decide +kernel, completes_of (by decide +kernel), by decide +kernel⟩

example : Completes ucd15 false false (script [] ['e', '́']) [136] ∧ Completes ucd15 false false (script [['é']] ['\n']) [136, 136] ∧
    output ucd15 false false (script [] ['e', '́']) [136] = ['é', '\n'] :=
  ⟨completes_of (by decide +kernel), completes_of (by decide +kernel), by decide +kernel⟩

/-! ## C83 -/

/-- C83: without unassigned scalars, lossy conversion to `TextString` returns its argument exactly if that is Basic Text. -/
theorem c83_lossy_same_iff_partial (chunks : List (List Char)) (last : List Char) (hb : SliceReads chunks last) (lens : Nat → Nat)
    (hl : ∀ i, normalizationBufferSize ≤ lens i) :
    (Converts chunks last lens (chunks.flatten ++ last) → fromText (isBasicText ucd15) (chunks.flatten ++ last) = .ok (chunks.flatten ++ last)) ∧
    ((∀ c ∈ chunks.flatten ++ last, isAssigned ucd15 c = true) →
      fromText (isBasicText ucd15) (chunks.flatten ++ last) = .ok (chunks.flatten ++ last) → Converts chunks last lens (chunks.flatten ++ last)) := by
  refine ⟨fun h => ?_, fun ha hv => c02_lossy_fixes_valid _ hv ha chunks last rfl hb lens hl⟩
  obtain ⟨t, h1, h2⟩ := c01_lossy_total_valid chunks last hb lens hl
  rw [h.unique h1]
  exact h2

/-- `TextSubstring::from_text_lossy`, which is the same function, changes substrings that are valid as they are. -/
theorem c83_refuted_substring : fromText (isBasicTextSubstr ucd15) ['́'] = .ok ['́'] ∧
    fromTextLossy ucd15 [] ['́'] [136, 136] = some ['͏', '́'] ∧
    fromText (isBasicTextSubstr ucd15) ['a', '‍'] = .ok ['a', '‍'] ∧
    fromTextLossy ucd15 [] ['a', '‍'] [136, 136] = some ['a', '‍', '͏'] := by decide +kernel

/-- What it returns is always a valid substring. -/
theorem c83_substring_lossy_valid (chunks : List (List Char)) (last : List Char) (hb : SliceReads chunks last) (lens : Nat → Nat)
    (hl : ∀ i, normalizationBufferSize ≤ lens i) :
    ∃ t, Converts chunks last lens t ∧ fromText (isBasicTextSubstr ucd15) t = .ok t := by
  obtain ⟨t, h1, h2⟩ := c01_lossy_total_valid chunks last hb lens hl
  exact ⟨t, h1, c09_text_is_substr t h2⟩

example : SliceReads [['e', '́']] [] ∧ fromText (isBasicText ucd15) ['e', '́'] ≠ .ok ['e', '́'] :=
  ⟨Or.inl (by decide), by decide +kernel⟩

/-! ## C84 -/

theorem scalars_contents (es : List Event) : scalars es = (contents es).length := by
  induction es with
  | nil => rfl
  | cons e es ih => cases e <;> simp [scalars, contents, ih]

/-- C84: a reader delivers at most 30 scalars for each it is given, whatever the source does: pushes, errors and ends of
stream of themselves make nothing. -/
theorem c84_read_size (nel lsps : Bool) (src : List Event) (lens : List Nat) :
    (written (readMany ucd15 lens (.new nel lsps) src)).length ≤ 30 * (contents src).length := by
  rw [← scalars_contents]
  exact written_length textLaws15 sizeLaws15 nel lsps src lens

theorem contents_script (chunks : List (List Char)) (last : List Char) : contents (script chunks last) = chunks.flatten ++ last := by
  unfold script
  induction chunks with
  | nil => simp [contents]
  | cons c chunks ih => simpa [contents] using ih

/-- The lossy conversion returns at most 30 scalars for each it is given, and one more for a byte-order mark. -/
theorem c84_lossy_size (chunks : List (List Char)) (last t : List Char) (lens : Nat → Nat) (h : Converts chunks last lens t) :
    t.length ≤ 30 * (chunks.flatten ++ last).length + 1 := by
  obtain ⟨m, text, h1, h2⟩ := read_of_converts h
  obtain ⟨lens', r, n, -, -, -, h3⟩ := readToEnd_run _ _ _ _ h1
  have h4 := c84_read_size false false (script chunks last) lens'
  rw [run_delivered textLaws15 false false (no_err_in_script chunks last)] at h3
  rw [h3] at h4
  have h5 := contents_script chunks last
  rw [h5] at h4
  have h6 : t.length ≤ text.length + 1 := by
    rw [fromTextLossy] at h2
    rw [script] at h1
    rw [h1] at h2
    dsimp only at h2
    generalize chunks.flatten ++ last = v at h2
    cases v with
    | nil => simp [lossyFinish] at h2; rw [← h2]; omega
    | cons c r =>
      simp only [lossyFinish] at h2
      split at h2 <;> split at h2 <;> (try split at h2) <;> simp at h2 <;> rw [← h2] <;> simp <;> omega
  omega

/-- The checked conversions return at most six scalars for each they are given. -/
theorem c84_owned_size (s t : List Char) (valid : List Char → Bool) (h0 : valid [] = true) (h : fromTextOwned ucd15 valid s = .ok t) :
    t.length ≤ 6 * s.length := by
  obtain ⟨-, rfl⟩ := (owned_ok_iff h0).1 h
  exact normChain_length sizeLaws15 s

example : fromTextOwned ucd15 (isBasicText ucd15) ['͸', 'a', '͸'] = .ok ['͏', '͸', '͏', 'a', '͏', '͸', '͏'] := by
  decide +kernel

/-- A writer of any form sends at most six scalars for each it is given. -/
theorem c84_write_size (w : Writer) (hw : Fresh w) (ops : List Op) :
    (run ucd15 w ops).sink.sent.length ≤ w.sink.sent.length + 6 * (ops.map Op.scalars).sum := by
  have h := run_size sizeLaws15 ops w
  have h1 : w.size = w.sink.sent.length := by simp [Writer.size, hw.buffer, hw.state]
  have h2 : ∀ w : Writer, w.sink.sent.length ≤ w.size := by intro w; simp only [Writer.size]; omega
  have := h2 (run ucd15 w ops)
  omega

example : (run ucd15 (.new goodSink) [.str ['e', '́', '\n'], .close]).sink.sent = ['é', '\n'] ∧
    ([Op.str ['e', '́', '\n'], .close].map Op.scalars).sum = 3 := by decide +kernel

/-! ## C85 -/

/-- C85: `find` returns the byte position of the first place where the scalars of the pattern stand in the text, `rfind` that
of the last, and both return nothing if there is none. -/
theorem c85_find (s pat : List Char) :
    (∀ i, find s pat = some i ↔ (∃ a b, s = a ++ (pat ++ b) ∧ (encode a).length = i) ∧ ∀ a b, s = a ++ (pat ++ b) → i ≤ (encode a).length) ∧
    (∀ i, rfind s pat = some i ↔ (∃ a b, s = a ++ (pat ++ b) ∧ (encode a).length = i) ∧ ∀ a b, s = a ++ (pat ++ b) → (encode a).length ≤ i) ∧
    (find s pat = none ↔ ¬ pat <:+: s) ∧ (rfind s pat = none ↔ ¬ pat <:+: s) := by
  have hin : (∀ a b, s ≠ a ++ (pat ++ b)) ↔ ¬ pat <:+: s := by
    constructor
    · rintro h ⟨a, b, e⟩
      exact h a b (by rw [← e]; simp)
    · rintro h a b rfl
      exact h ⟨a, b, by simp⟩
  refine ⟨fun i => find_some, fun i => ⟨rfind_some, ?_⟩, find_none.trans hin, rfind_none.trans hin⟩
  rintro ⟨⟨a, b, h1, h2⟩, h3⟩
  cases hr : rfind s pat with
  | none => exact absurd h1 (rfind_none.1 hr a b)
  | some j =>
    obtain ⟨⟨a', b', h4, h5⟩, h6⟩ := rfind_some hr
    have := h3 a' b' h4
    have := h6 a b h1
    congr 1
    omega

/-- `contains`, `starts_with` and `ends_with` are about the scalars, too. -/
theorem c85_contains (s pat : List Char) : (contains s pat = true ↔ pat <:+: s) ∧ (startsWith s pat = true ↔ pat <+: s) ∧
    (endsWith s pat = true ↔ pat <:+ s) := by
  refine ⟨?_, startsWith_iff, endsWith_iff⟩
  have := (c85_find s pat).2.2.1
  unfold contains
  cases hf : find s pat with
  | none => simpa using this.1 hf
  | some i =>
    simp only [Option.isSome_some, true_iff]
    by_cases h : pat <:+: s
    · exact h
    · rw [this.2 h] at hf; simp at hf

/-- The positions of `match_indices` are those between the gaps left by taking matches from the left; there is exactly one
such list of gaps. -/
theorem c85_matches (s pat : List Char) (hp : pat ≠ []) :
    ∃ gs, Gaps pat s gs ∧ matchIndices s pat = gapEnds pat 0 gs ∧ ∀ gs', Gaps pat s gs' → gs' = gs := by
  obtain ⟨gs, h1, h2⟩ := matchBytes_gaps hp ((encode s).length + 1) 0 s (by omega)
  exact ⟨gs, h1, h2, fun gs' h => gaps_unique h h1⟩

/-- Slicing a text at a position found does not panic; the match is the pattern, and what is before and after it is valid. -/
theorem c85_slices (s pat : List Char) (hs : isBasicTextSubstr ucd15 s = true) (i : Nat) (h : find s pat = some i ∨ rfind s pat = some i) :
    slice s i (i + (encode pat).length) = some pat ∧ ∃ a b, sliceTo s i = some a ∧ sliceFrom s (i + (encode pat).length) = some b ∧
      s = a ++ (pat ++ b) ∧ isBasicTextSubstr ucd15 a = true ∧ isBasicTextSubstr ucd15 pat = true ∧ isBasicTextSubstr ucd15 b = true := by
  have : ∃ a b, s = a ++ (pat ++ b) ∧ (encode a).length = i := by
    rcases h with h | h
    · exact (find_some.1 h).1
    · exact (rfind_some h).1
  obtain ⟨a, b, rfl, rfl⟩ := this
  refine ⟨slice_iff.2 ⟨a, b, by simp, rfl, by simp [encode_append]⟩, a, b, sliceTo_append _ _, ?_, rfl, ?_, ?_, ?_⟩
  · have := sliceFrom_append (a ++ pat) b
    rw [encode_append, List.length_append] at this
    simpa using this
  · exact substr_prefix textLaws15 hs
  · exact substr_infix (p := a) (q := b) textLaws15 (by simpa using hs)
  · exact substr_suffix (a := a ++ pat) textLaws15 (by simpa using hs)

example : find ['é', 'a', '\n', 'é', 'b'] ['é'] = some 0 ∧ rfind ['é', 'a', '\n', 'é', 'b'] ['é'] = some 4 ∧
    find ['é', 'a'] ['e'] = none ∧ matchIndices ['a', 'a', 'é', 'a', 'a', 'a'] ['a', 'a'] = [0, 4] := by decide +kernel

/-! ## C86 -/

/-- C86: the lines of a text are the strings without newline that, each followed by a newline, make up the text, which itself
may lack the last of these newlines. -/
theorem c86_lines (s : List Char) (hs : isBasicTextSubstr ucd15 s = true) (ls : List (List Char)) :
    lines s = ls ↔ (∀ l ∈ ls, '\n' ∉ l) ∧ ls.flatMap (· ++ ['\n']) = if s = [] ∨ s.getLast? = some '\n' then s else s ++ ['\n'] := by
  have hr : '\r' ∉ s := fun h => absurd ((substr_iff.1 hs).1 _ h) (by decide +kernel)
  constructor
  · rintro rfl
    exact ⟨lines_no_nl hr, lines_join hr⟩
  · rintro ⟨h1, h2⟩
    exact join_injective (lines_no_nl hr) h1 ((lines_join hr).trans h2.symm)

/-- Each is a valid substring, and a valid text exactly if its first and last scalar are allowed there. -/
theorem c86_lines_valid_partial (s : List Char) (hs : isBasicTextSubstr ucd15 s = true) (l : List Char) (hl : l ∈ lines s) :
    isBasicTextSubstr ucd15 l = true ∧
    (isBasicText ucd15 l = true ↔ (∀ c ∈ l.head?, isStart ucd15 c = true) ∧ ∀ c ∈ l.getLast?, isEnd c = true) := by
  have h : isBasicTextSubstr ucd15 l = true := by
    obtain ⟨x, hx, rfl⟩ := List.mem_map.1 hl
    obtain ⟨p, q, hpq⟩ := List.append_of_mem hx
    have hsx : isBasicTextSubstr ucd15 x = true := by
      have := splitInclusive_flatten s
      rw [hpq] at this
      refine substr_infix (p := p.flatten) (q := q.flatten) textLaws15 ?_
      rw [show p.flatten ++ x ++ q.flatten = s by rw [← this]; simp]
      exact hs
    unfold chomp
    have hd : ∀ y : List Char, isBasicTextSubstr ucd15 y = true → isBasicTextSubstr ucd15 y.dropLast = true := by
      intro y hy
      rcases List.eq_nil_or_concat y with rfl | ⟨y', c, rfl⟩
      · exact hy
      · rw [List.concat_eq_append] at *
        rw [List.dropLast_concat]
        exact substr_prefix textLaws15 hy
    split
    · split
      · exact hd _ (hd _ hsx)
      · exact hd _ hsx
    · exact hsx
  refine ⟨h, ?_⟩
  rw [text_iff]
  simp [h]

/-- A line of a valid text need not be a valid text. -/
theorem c86_refuted_text : isBasicText ucd15 ['a', '\n', '́', '\n', 'a', '‍', '\n'] = true ∧
    lines ['a', '\n', '́', '\n', 'a', '‍', '\n'] = [['a'], ['́'], ['a', '‍']] ∧
    isBasicText ucd15 ['́'] = false ∧ isBasicText ucd15 ['a', '‍'] = false := by decide +kernel

/-- Not even when the text comes from a reader. -/
theorem c86_refuted_read : output ucd15 false false (script [] ['a', '\n', '́', 'b']) [136] = ['a', '\n', '́', 'b', '\n'] ∧
    lines ['a', '\n', '́', 'b', '\n'] = [['a'], ['́', 'b']] ∧ isBasicText ucd15 ['́', 'b'] = false := by decide +kernel

example : isBasicTextSubstr ucd15 ['a', 'b', '\n', '\n', 'c'] = true ∧ lines ['a', 'b', '\n', '\n', 'c'] = [['a', 'b'], [], ['c']] := by
  decide +kernel

/-! ## C87 -/

/-- C87: when a read returns and leaves room in the buffer, at least as many newlines have been delivered as have come from the
source, if no escape has. -/
theorem c87_lines_prompt_partial (nel lsps : Bool) (src : List Event) (lens : List Nat) (len : Nat) (r : ReadResult) (n : Nat) (st : Status)
    (hr : (readMany ucd15 (lens ++ [len]) (.new nel lsps) src).getLast? = some r) (hok : r.ret = .ok n st) (hroom : n + 4 ≤ len)
    (came : List Event) (hc : src = came ++ r.src) (he : ESC ∉ contents came) :
    (contents came).count '\n' ≤ (written (readMany ucd15 (lens ++ [len]) (.new nel lsps) src)).count '\n' := by
  have hsplit : readMany ucd15 (lens ++ [len]) (.new nel lsps) src = readMany ucd15 lens (.new nel lsps) src ++
      [readWithStatus ucd15 len (finalState (.new nel lsps) src (readMany ucd15 lens (.new nel lsps) src)).1
        (finalState (.new nel lsps) src (readMany ucd15 lens (.new nel lsps) src)).2] := by
    rw [readMany_append]; rfl
  obtain ⟨es0, -, g2, -, -⟩ := run_rel textLaws15 lens (.new nel lsps) src [] [] (Rel.init nel lsps)
  have hidle : Idle r.input := by
    rw [hsplit, List.getLast?_concat] at hr
    injection hr with hr
    subst hr
    exact readWithStatus_idle textLaws15 g2.inv hok hroom
  obtain ⟨es, h1, h2, -, -⟩ := run_rel textLaws15 (lens ++ [len]) (.new nel lsps) src [] [] (Rel.init nel lsps)
  have hf : finalState (.new nel lsps) src (readMany ucd15 (lens ++ [len]) (.new nel lsps) src) = (r.input, r.src) := by
    unfold finalState; rw [hr]
  rw [hf] at h1 h2
  obtain ⟨segs, a1, a2, -⟩ := h2.inv.ex
  have hes : contents es = contents came := by
    have hap : ∀ a b : List Event, contents (a ++ b) = contents a ++ contents b := by
      intro a b
      induction a with
      | nil => rfl
      | cons e a ih => cases e <;> simp [contents, ih]
    have hrep : ∀ m, contents (List.replicate m eof) = [] := by
      intro m
      induction m with
      | zero => rfl
      | succ m ih => rw [List.replicate_succ]; simpa [contents, eof] using ih
    obtain ⟨m, hm, hm'⟩ := h1
    rw [hc] at hm
    by_cases hz : m = 0
    · subst hz
      simp only [List.replicate_zero, List.append_nil] at hm
      rw [List.append_cancel_right hm]
    · have hz' : r.src = [] := hm' hz
      simp only [hz', List.append_nil] at hm
      rw [hm, hap, hrep, List.append_nil]
  have hcount := absorbAll_open (U := ucd15) ([] ++ es) ((TextInput.new nel lsps).ctl, []) (Or.inl ⟨true, rfl⟩) (by rw [List.nil_append, hes]; exact he)
  rw [a1] at hcount
  have hn : '\n' ≠ CGJ := by decide
  have hcs := count_segs textLaws15 (inert_lf textLaws15) (by decide +kernel : isAssigned ucd15 '\n' = true) hn segs
  rw [← a2] at hcs
  have hq : r.input.queue.count '\n' = 0 := by
    apply List.count_eq_zero.2
    intro hmem
    exact absurd (hidle.queue _ hmem) (by decide)
  simp only [hidle.quick, hidle.iter, List.take_zero, List.append_nil, List.nil_append, List.drop_zero, List.count_append, hq, List.count_nil,
    Nat.zero_add, Nat.add_zero, hes] at hcs hcount
  omega

theorem feed_printable (s : List Char) : ∀ k : Ctl, (∃ b, k.state = .ground b) → (∀ c ∈ s, Printable c ∧ c ≠ '\n') →
    (∃ b, (feed ucd15 k s).1.state = .ground b) ∧ (feed ucd15 k s).2 = s := by
  induction s with
  | nil => intro k hk _; exact ⟨hk, rfl⟩
  | cons c s ih =>
    intro k ⟨b, hk⟩ h
    obtain ⟨hp, hn⟩ := h c (by simp)
    have ha := printable_ascii hp
    have hok := (ok_ascii ha).2 hp
    obtain ⟨n1, n2, n3, n4, n5, n6, -⟩ := ok_not_special hok
    have hstep : stepChar ucd15 k c = ({ k with state := .ground false, expectStarter := false }, [c]) := by
      unfold stepChar
      rw [hk]
      unfold groundStep
      rw [if_neg hn, if_neg n1, if_neg n2, if_neg n3]
      have e : ((k.nel && c == NEL) || (k.lsps && (c == LS || c == PS))) = false := by simp [n4, n5, n6]
      simp only [e, Bool.false_eq_true, if_false, replace_ok (okChar_check.1 hok).1]
      rw [startGuard, List.head?_cons, Option.map_some, Option.getD_some, textLaws15.start_ascii c ha]
      simp
    obtain ⟨h1, h2⟩ := ih { k with state := .ground false, expectStarter := false } ⟨_, rfl⟩ fun d hd => h d (by simp [hd])
    simp only [feed, hstep]
    exact ⟨h1, by rw [h2]; rfl⟩

theorem holds_back (lens : List Nat) : ∀ (chunks : List (List Char)) (t : TextInput) (rest : List Event), Idle t → (∃ b, t.ctl.state = .ground b) →
    t.pending = .active → (∀ c ∈ chunks.flatten, Printable c ∧ c ≠ '\n') → lens.length ≤ chunks.length →
    written (readMany ucd15 lens t (chunks.map (fun s => .data s .active) ++ rest)) = [] := by
  induction lens with
  | nil => intros; rfl
  | cons len lens ih =>
    intro chunks t rest hi hg hpend hp hl
    cases chunks with
    | nil => simp at hl
    | cons s chunks =>
      have hps : ∀ c ∈ s, Printable c ∧ c ≠ '\n' := fun c hc => hp c (by simp [hc])
      have hpc : ∀ c ∈ chunks.flatten, Printable c ∧ c ≠ '\n' := fun c hc => hp c (by
        rw [List.flatten_cons]; exact List.mem_append_right _ hc)
      have hl' : lens.length ≤ chunks.length := by simpa using hl
      have hw : ∀ (x : ReadResult) (xs : List ReadResult), written (x :: xs) = x.out ++ written xs := fun _ _ => rfl
      simp only [readMany, hw]
      by_cases hlen : len < normalizationBufferSize
      · have e : readWithStatus ucd15 len t (List.map (fun s => Event.data s Status.active) (s :: chunks) ++ rest) =
            { ret := .invalidInput, out := [], input := t, src := List.map (fun s => Event.data s Status.active) (s :: chunks) ++ rest } := by
          unfold readWithStatus; rw [if_pos hlen]
        rw [e]
        exact ih (s :: chunks) t rest hi hg hpend hp (by simp at hl ⊢; omega)
      · have hb : (if t.ctl.atStart && s.head? == some BOM then s.tail else s) = s := by
          rw [if_neg]
          intro hc
          simp only [Bool.and_eq_true, beq_iff_eq] at hc
          exact absurd (hps BOM (List.mem_of_mem_head? hc.2)).1 (by decide)
        obtain ⟨h1, h2⟩ := feed_printable s { t.ctl with atStart := false } hg hps
        have hraw : processRaw ucd15 t.ctl s = ((feed ucd15 { t.ctl with atStart := false } s).1, s) := by
          simp only [processRaw, hb]
          exact Prod.ext rfl h2
        generalize (feed ucd15 { t.ctl with atStart := false } s).1 = k at h1 hraw
        have hi' : Idle { t with ctl := k, queue := t.queue ++ s } := by
          refine ⟨hi.quick, hi.iter, ?_⟩
          intro c hc
          rcases List.mem_append.1 hc with hc | hc
          · exact hi.queue c hc
          · apply Bool.eq_false_iff.2
            intro hbc
            rcases isBoundary_iff.1 hbc with rfl | rfl
            · exact (hps _ hc).2 rfl
            · exact absurd (hps _ hc).1 (by decide)
        have e : readWithStatus ucd15 len t (List.map (fun s => Event.data s Status.active) (s :: chunks) ++ rest) =
            { ret := .ok 0 .active, out := [], input := { t with ctl := k, queue := t.queue ++ s },
              src := List.map (fun s => Event.data s Status.active) chunks ++ rest } := by
          unfold readWithStatus
          rw [if_neg hlen]
          simp only [drain, queueNext_none hi, hpend, List.map_cons, List.cons_append, nextEvent, hraw]
          rw [hpend] at hi'
          simp [queueNext_none hi', encode_nil]
        rw [e]
        exact ih chunks _ rest hi' h1 hpend hpc hl'

/-- C87, the other side: until a newline comes nothing is delivered, however much has come.  So there is no bound on what a reader
must keep. -/
theorem c87_refuted_bounded (nel lsps : Bool) (chunks : List (List Char)) (hp : ∀ c ∈ chunks.flatten, Printable c ∧ c ≠ '\n') (rest : List Event) (lens : List Nat)
    (hl : lens.length ≤ chunks.length) : written (readMany ucd15 lens (.new nel lsps) (chunks.map (fun s => .data s .active) ++ rest)) = [] :=
  holds_back lens chunks _ rest ⟨rfl, rfl, by simp [TextInput.new]⟩ ⟨true, rfl⟩ rfl hp hl

example : (readMany ucd15 [136, 136] (.new false false) [.data ['a', '\n', 'b'] .active, .data ['c'] .active]).getLast?.map (·.ret) = some (.ok 0 .active) ∧
    written (readMany ucd15 [136, 136] (.new false false) [.data ['a', '\n', 'b'] .active, .data ['c'] .active]) = ['a', '\n'] := by decide +kernel

end Verif
