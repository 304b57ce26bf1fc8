import Verif.Props.Prepared
import Verif.Props.Writer
import Verif.Props.Reader

/-!
# C124: what the background document says about scalars

`docs/Background.md` gives the reasons for what is in Basic Text and what is not, scalar by scalar.
-/

namespace Verif
open Ucd Spec

namespace Spec

/-- One of the scalars of the ranges. -/
def among (rs : List (Nat × Nat)) (c : Char) : Bool := rs.any fun r => decide (r.1 ≤ c.toNat) && decide (c.toNat ≤ r.2)

/-- Holes in blocks (`docs/Background.md:169-184`). -/
def holes : List (Nat × Nat) := [
  (0x9e4, 0x9e5), (0xa64, 0xa65), (0xae4, 0xae5), (0xb64, 0xb65), (0xbe4, 0xbe5), (0xc64, 0xc65), (0xce4, 0xce5), (0xd64, 0xd65), (0x2072, 0x2073),
  (0x1d455, 0x1d455), (0x1d49d, 0x1d49d), (0x1d4a0, 0x1d4a1), (0x1d4a3, 0x1d4a4), (0x1d4a7, 0x1d4a8), (0x1d4ad, 0x1d4ad), (0x1d4ba, 0x1d4ba),
  (0x1d4bc, 0x1d4bc), (0x1d4c4, 0x1d4c4), (0x1d506, 0x1d506), (0x1d50b, 0x1d50c), (0x1d515, 0x1d515), (0x1d51d, 0x1d51d), (0x1d53a, 0x1d53a),
  (0x1d53f, 0x1d53f), (0x1d545, 0x1d545), (0x1d547, 0x1d549), (0x1d551, 0x1d551)]

/-- Explicit directional formatting characters (`docs/Background.md:328-336`). -/
def explicitBidi : List (Nat × Nat) := [(0x202a, 0x202e), (0x2066, 0x2069)]

/-- Noncharacters (`docs/Background.md:235-245`). -/
def nonchars : List (Nat × Nat) := (0xfdd0, 0xfdef) :: (List.range 17).map fun p => (p * 0x10000 + 0xfffe, p * 0x10000 + 0xffff)

/-- The scalars said to be excluded, by section: newlines and form feed (`42-117`), controls (`119-152`, `278-284`, `377-404`), deprecated
(`154-165`), holes, singletons (`186-193`), discouraged (`197-205`), noncharacters, out of band (`263-276`), Latin ligatures (`286-293`),
the language tag (`317-326`), explicit directional formatting. -/
def excluded : List (Nat × Nat) :=
  [(0x2028, 0x2029), (0x0, 0x8), (0xb, 0x1f), (0x7f, 0x9f), (0x149, 0x149), (0x673, 0x673), (0xf77, 0xf77), (0xf79, 0xf79), (0x17a3, 0x17a4),
    (0x2329, 0x232a), (0x2126, 0x2126), (0x212a, 0x212b), (0x17b4, 0x17b5), (0x17d8, 0x17d8), (0x2df5, 0x2df5), (0xfff9, 0xfffc),
    (0xfb00, 0xfb06), (0xe0001, 0xe0001)] ++ holes ++ nonchars ++ explicitBidi

/-- The scalars said to be included: tab and newline (`42-98`, `119-130`), compatibility jamo (`226-233`), variation selectors (`255-261`), the lira
sign (`295-300`), musical controls (`302-313`), tag characters but U+E0001 (`317-326`), implicit directional formatting (`328-336`). -/
def included : List (Nat × Nat) := [(0x9, 0xa), (0x3131, 0x318e), (0xfe00, 0xfe0f), (0xe0100, 0xe01ef), (0x20a4, 0x20a4), (0x1d173, 0x1d17a),
  (0xe0000, 0xe0000), (0xe0002, 0xe007f), (0x200e, 0x200f), (0x61c, 0x61c)]

end Spec

/-- Checking ranges by going through them. -/
theorem among_all {p : Char → Bool} {rs : List (Nat × Nat)} (h : rs.all (fun r => (List.range (r.2 + 1 - r.1)).all fun i => p (Char.ofNat (r.1 + i))) = true)
    {c : Char} (hc : among rs c = true) : p c = true := by
  unfold among at hc
  obtain ⟨r, hr, hc⟩ := List.any_eq_true.1 hc
  simp only [Bool.and_eq_true, decide_eq_true_eq] at hc
  have := List.all_eq_true.1 (List.all_eq_true.1 h r hr) (c.toNat - r.1) (List.mem_range.2 (by omega))
  rw [show r.1 + (c.toNat - r.1) = c.toNat by omega, Char.ofNat_toNat] at this
  exact this

theorem excluded_bad {c : Char} (h : among excluded c = true) : okChar c = false := by
  have := among_all (p := fun c => !okChar c) (by decide +kernel) h
  simpa using this

/-- C124: the scalars that the document says are excluded are not accepted by any of the strict conversions, never read, not in the result of any
lossy conversion, and never sent by a writer without CR LF compatibility and color. -/
theorem c124_excluded (c : Char) (h : among excluded c = true) :
    (∀ s, c ∈ s → (∀ t, fromText (isBasicText ucd15) s ≠ .ok t) ∧ (∀ t, fromText (isBasicTextSubstr ucd15) s ≠ .ok t) ∧
      (∀ t, fromTextOwned ucd15 (isBasicText ucd15) s ≠ .ok t) ∧ ∀ t, fromTextOwned ucd15 (isBasicTextSubstr ucd15) s ≠ .ok t) ∧
    (∀ nel lsps src lens, c ∉ written (readMany ucd15 lens (.new nel lsps) src)) ∧
    (∀ chunks last, SliceReads chunks last → ∀ lens t, Converts chunks last lens t → (∀ i, normalizationBufferSize ≤ lens i) → c ∉ t) ∧
    ∀ w ops T, Fresh w → w.crlf = false → w.ansi = false → (∀ op ∈ ops, op.Ok ucd15) → (run ucd15 w ops).sink.sent = w.sink.sent ++ T → c ∉ T := by
  have hno := excluded_bad h
  have hsub : ∀ s, isBasicTextSubstr ucd15 s = true → c ∉ s := fun s hs hc => by
    have := (substr_iff.1 hs).1 c hc; rw [hno] at this; simp at this
  refine ⟨fun s hc => ?_, fun nel lsps src lens => hsub _ (c14_reader_writes_valid nel lsps src lens).1, fun chunks last hb lens t ht hl => ?_,
    fun w ops T hw h1 h2 ho hT hc => ?_⟩
  · refine ⟨fun t ht => hsub s (text_substr (fromText_ok_iff.1 ht).1) hc, fun t ht => hsub s (fromText_ok_iff.1 ht).1 hc, fun t ht => ?_, fun t ht => ?_⟩
    · have := ((owned_ok_iff isBasicText_nil).1 ht).1.1 c hc; rw [hno] at this; simp at this
    · have := ((owned_ok_iff isBasicTextSubstr_nil).1 ht).1.1 c hc; rw [hno] at this; simp at this
  · obtain ⟨t', g1, g2⟩ := c01_lossy_total_valid chunks last hb lens hl
    rw [ht.unique g1]
    exact hsub _ (text_substr (fromText_ok_iff.1 g2).1)
  · obtain ⟨T', g1, g2⟩ := c30_sink_scalars w hw ops ho
    obtain rfl : T = T' := List.append_cancel_left (hT.symm.trans g1)
    rcases g2 c hc with g | ⟨g, -⟩ | ⟨g, -⟩
    · rw [okChar_check.2 g] at hno; simp at hno
    · rw [h1] at g; simp at g
    · rw [h2] at g; simp at g

example : among excluded '\u202e' = true ∧ among excluded '\x00' = true ∧ among excluded '\ufb01' = true ∧ among excluded 'a' = false := by decide

/-- C124: the scalars that the document says are included are: `TextStr` takes them, and a reader delivers them. -/
theorem c124_included (c : Char) (h : among included c = true) :
    fromText (isBasicText ucd15) ['a', c, 'a'] = .ok ['a', c, 'a'] ∧ c ∈ output ucd15 false false (script [] ['a', c, 'a']) [136] := by
  have := among_all (p := fun c => isBasicText ucd15 ['a', c, 'a'] && (output ucd15 false false (script [] ['a', c, 'a']) [136]).contains c) (by decide +kernel) h
  simp only [Bool.and_eq_true, List.contains_iff_mem] at this
  exact ⟨fromText_ok_iff.2 ⟨this.1, rfl⟩, this.2⟩

/-- C124: the holes are read as if they were U+FFFD, in any source and call by call. -/
theorem c124_holes (nel lsps : Bool) (src : List Event) (lens : List Nat) :
    (readMany ucd15 lens (.new nel lsps) (src.map (Event.subst fun c => if among holes c then ['\ufffd'] else [c]))).map (fun r => (r.ret, r.out)) =
    (readMany ucd15 lens (.new nel lsps) src).map (fun r => (r.ret, r.out)) := by
  refine c123_anywhere nel lsps _ (fun c => ?_) src lens
  cases h : among holes c with
  | false => exact .inl rfl
  | true =>
    have := among_all (p := fun c => decide (Row c ['\ufffd'] ∧ 0x7f < c.toNat)) (by decide +kernel) h
    exact .inr ⟨'\ufffd', rfl, (of_decide_eq_true this).1, (of_decide_eq_true this).2, by decide⟩

/-- C124 fails where the document compares Basic Text with the list of "What makes a Unicode code point safe?" (`docs/Background.md:433-448`): it says
that both exclude unassigned scalars and private-use characters, but Basic Text has both; and where it says that Basic Text includes
the bidi control characters (`docs/Background.md:495-496`), of which the explicit ones are excluded. -/
theorem c124_refuted : ucd15.assigned '\u0378' = false ∧ fromText (isBasicText ucd15) ['\u034f', '\u0378', '\u034f'] = .ok ['\u034f', '\u0378', '\u034f'] ∧
    fromText (isBasicText ucd15) ['\ue000'] = .ok ['\ue000'] ∧ isBasicText ucd15 ['a', '\u2067', 'a'] = false := by decide +kernel

end Verif
