import Verif.Props.CutPlaces
import Verif.Props.Bytes
import Verif.Props.Exact

/-!
# Property C113: exactly these texts come out of the conversions
-/

namespace Verif
open Ucd Spec

/-- The texts in question: Basic Text in which every unassigned scalar comes directly after a U+34F. -/
def Spec.Attained (t : List Char) : Prop := fromText (isBasicText ucd15) t = .ok t ∧ Preceded ucd15 t

theorem ends_nl {nel lsps : Bool} {src : List Event} (hs : ∀ e ∈ src, e ≠ .err) {lens : List Nat} (hc : Completes ucd15 nel lsps src lens) :
    output ucd15 nel lsps src lens = [] ∨ (output ucd15 nel lsps src lens).getLast? = some '\n' := by
  obtain ⟨r, n, hr, hok⟩ := hc
  rw [output, run_delivered textLaws15 nel lsps hs]
  exact (c15_reader_ends_newline nel lsps src lens r n hr hok).1

/-- C113: a text can come out of a reader, from some source, in some reads, if and only if it is such a text and is empty or ends with U+A. -/
theorem c113_read_iff (nel lsps : Bool) (t : List Char) :
    (∃ src lens, (∀ e ∈ src, e ≠ .err) ∧ Completes ucd15 nel lsps src lens ∧ output ucd15 nel lsps src lens = t) ↔
      Attained t ∧ (t = [] ∨ t.getLast? = some '\n') := by
  constructor
  · rintro ⟨src, lens, hs, hc, rfl⟩
    exact ⟨⟨fromText_ok ((c14_reader_output_valid nel lsps src hs lens).2.2 hc), c107_preceded nel lsps src hs lens⟩, ends_nl hs hc⟩
  · rintro ⟨⟨h1, h2⟩, h3⟩
    obtain ⟨n, hn⟩ := c15_reader_reaches_end nel lsps (script [] t) (fun _ => normalizationBufferSize) (fun _ => Nat.le_refl _)
    exact ⟨_, _, no_err_in_script [] t, hn, (c107_unchanged_iff nel lsps [] t t rfl h1 h3 _ hn).2 ⟨h2, by simp⟩⟩

/-- C113: a text can come out of `from_text_lossy` if and only if it is such a text. -/
theorem c113_lossy_iff (t : List Char) :
    (∃ chunks last lens, SliceReads chunks last ∧ Converts chunks last lens t) ↔ Attained t := by
  constructor
  · rintro ⟨chunks, last, lens, hb, h⟩
    obtain ⟨m, text, h1, h2⟩ := read_of_converts h
    obtain ⟨t', g1, g2⟩ := lossy_valid textLaws15 wj_start hb h1
    rw [h2] at g1
    injection g1 with g1
    subst g1
    exact ⟨fromText_ok g2, lossy_preceded chunks last hb lens t h⟩
  · rintro ⟨h1, h2⟩
    have hb : SliceReads [] t := by by_cases h : t = []; exact Or.inr h; exact Or.inl (by simpa using h)
    obtain ⟨t', h, -⟩ := c01_lossy_total_valid [] t hb (fun _ => normalizationBufferSize) (fun _ => Nat.le_refl _)
    have := (c02_lossy_fixes_iff t h1 [] t rfl hb _ t' h).2 ⟨h2, by simp⟩
    exact ⟨[], t, _, hb, this ▸ h⟩

/-- C113: and out of `TextString::from_text` the same. -/
theorem c113_checked_iff (t : List Char) : (∃ s, fromTextOwned ucd15 (isBasicText ucd15) s = .ok t) ↔ Attained t := by
  constructor
  · rintro ⟨s, h⟩
    refine ⟨c05_owned_valid s t h, ?_⟩
    obtain ⟨-, rfl⟩ := (owned_ok_iff isBasicText_nil).1 h
    exact preceded_iff.2 (pre_normChain textLaws15 s)
  · rintro ⟨h1, h2⟩
    exact ⟨t, (c89_unchanged t h1).2 h2⟩

/-- C113: a text can be what a plain writer has sent, of bytes written as a whole and closed, if and only if it can come out of a reader. -/
theorem c113_written_iff (t : List Char) :
    (∃ b, writeClose ucd15 (.new goodSink) b = some t) ↔ Attained t ∧ (t = [] ∨ t.getLast? = some '\n') := by
  constructor
  · rintro ⟨b, h⟩
    obtain ⟨s, -, h2, h3, h4, h5⟩ := (writeClose_iff textLaws15 rfl rfl).1 h
    have h5 : t = normChain ucd15 s := h5
    subst h5
    refine ⟨⟨fromText_ok (normChain_valid textLaws15 ⟨h2, head_normChain_conv textLaws15 startLaws15 h3, ?_⟩), preceded_iff.2 (pre_normChain textLaws15 s)⟩, ?_⟩
    · intro c hc
      rcases h4 with rfl | h4
      · simp at hc
      · rw [h4] at hc; rw [← Option.some.inj hc]; decide +kernel
    · rcases h4 with rfl | h4
      · exact Or.inl rfl
      · obtain ⟨x, rfl⟩ := List.getLast?_eq_some_iff.1 h4
        right; rw [normChain_nl textLaws15]; simp
  · rintro ⟨⟨h1, h2⟩, h3⟩
    have hv := (fromText_ok_iff.1 h1).1
    obtain ⟨i1, i2, i3⟩ := text_iff.1 hv
    have e : normChain ucd15 t = t := by
      rw [normChain_of_nss textLaws15 (substr_iff.1 i3).2]
      exact (isolate_fix textLaws15 t).2 h2
    exact ⟨encode t, (writeClose_iff textLaws15 rfl rfl).2 ⟨t, rfl, (substr_iff.1 i3).1, by rw [e]; exact i1, h3, by rw [e]; rfl⟩⟩

/-- C113: so what one writes whole is what one reads, as sets of texts; and these are the texts of the string conversions that are empty or
end with U+A. -/
theorem c113_same_texts (nel lsps : Bool) (t : List Char) :
    ((∃ src lens, (∀ e ∈ src, e ≠ .err) ∧ Completes ucd15 nel lsps src lens ∧ output ucd15 nel lsps src lens = t) ↔
      ∃ b, writeClose ucd15 (.new goodSink) b = some t) ∧
    ((∃ chunks last lens, SliceReads chunks last ∧ Converts chunks last lens t) ↔ ∃ s, fromTextOwned ucd15 (isBasicText ucd15) s = .ok t) := by
  rw [c113_read_iff, c113_written_iff, c113_lossy_iff, c113_checked_iff]
  exact ⟨Iff.rfl, Iff.rfl⟩

/-- Not all Basic Text is among them: isolation is not checked. -/
example : Attained ['a', '͏', '͸', '͏', '\n'] ∧ fromText (isBasicText ucd15) ['͸'] = .ok ['͸'] ∧ ¬ Attained ['͸'] := by
  refine ⟨⟨by decide +kernel, (isolate_fix textLaws15 _).1 (by decide +kernel)⟩, by decide +kernel, fun h => ?_⟩
  have := h.2 [] '͸' [] rfl (by decide +kernel)
  simp at this

end Verif
