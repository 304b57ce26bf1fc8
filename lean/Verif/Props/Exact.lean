import Verif.ExactCut
import Verif.ExactWhole
import Verif.Props.Tables
import Verif.Props.Unicode

/-!
# Exactly which inputs are treated as claimed (C88, C89)

For several properties the theorems named `_partial` elsewhere have a proviso, and here is shown that the proviso is exactly what is needed.
-/

namespace Verif
open Ucd Spec

/-! ## C16 -/

theorem single_safe (s : List Char) : BomSafe [] s := by
  unfold BomSafe
  cases s <;> simp

theorem completes (nel lsps : Bool) (chunks : List (List Char)) (last : List Char) : ∃ lens, Completes ucd15 nel lsps (script chunks last) lens := by
  obtain ⟨n, h⟩ := c15_reader_reaches_end nel lsps (script chunks last) (fun _ => normalizationBufferSize) (fun _ => Nat.le_refl _)
  exact ⟨_, h⟩

/-- a content gives the same text however it is cut and whatever the buffers, empty reads included, if and only if it does not begin with
U+FEFF and, escape sequences aside, no U+034F comes directly before an unassigned scalar. -/
theorem c88_cuts (nel lsps : Bool) (s : List Char) :
    (∀ chunks last lens chunks' last' lens', chunks.flatten ++ last = s → chunks'.flatten ++ last' = s →
      Completes ucd15 nel lsps (script chunks last) lens → Completes ucd15 nel lsps (script chunks' last') lens' →
      output ucd15 nel lsps (script chunks last) lens = output ucd15 nel lsps (script chunks' last') lens') ↔
    s.head? ≠ some BOM ∧ Clear ucd15 nel lsps s := by
  constructor
  · intro h
    refine ⟨?_, ?_⟩
    · intro hb
      cases s with
      | nil => simp at hb
      | cons c s =>
        simp at hb
        subst hb
        obtain ⟨l1, h1⟩ := completes nel lsps [] (BOM :: s)
        obtain ⟨l2, h2⟩ := completes nel lsps [[]] (BOM :: s)
        exact bom_matters textLaws15 s l1 l2 h1 h2 (h _ _ _ _ _ _ rfl rfl h1 h2)
    · refine Classical.byContradiction fun hc => ?_
      obtain ⟨s1, s2, e1, -, e2⟩ := cut_matters textLaws15 hc
      obtain ⟨l1, h1⟩ := completes nel lsps [] s
      obtain ⟨l2, h2⟩ := completes nel lsps [s1] s2
      exact e2 l1 l2 h1 h2 (h _ _ _ _ _ _ rfl (by simp [e1]) h1 h2)
  · rintro ⟨hb, hc⟩ chunks last lens chunks' last' lens' rfl h2 h h'
    exact c16_chunk_independent_partial nel lsps chunks chunks' last last' lens lens' h2.symm (Or.inr hb) (Or.inr (by rw [h2]; exact hb)) hc h h'

/-- With non-empty reads (or without U+FEFF at the start) the second condition is what matters. -/
theorem c88_cuts_without_empty_reads (nel lsps : Bool) (s : List Char) :
    (∀ chunks last lens chunks' last' lens', chunks.flatten ++ last = s → chunks'.flatten ++ last' = s → BomSafe chunks last → BomSafe chunks' last' →
      Completes ucd15 nel lsps (script chunks last) lens → Completes ucd15 nel lsps (script chunks' last') lens' →
      output ucd15 nel lsps (script chunks last) lens = output ucd15 nel lsps (script chunks' last') lens') ↔
    Clear ucd15 nel lsps s := by
  constructor
  · intro h
    refine Classical.byContradiction fun hc => ?_
    obtain ⟨s1, s2, e1, e0, e2⟩ := cut_matters textLaws15 hc
    obtain ⟨l1, h1⟩ := completes nel lsps [] s
    obtain ⟨l2, h2⟩ := completes nel lsps [s1] s2
    exact e2 l1 l2 h1 h2 (h _ _ _ _ _ _ rfl (by simp [e1]) (single_safe s) (Or.inl (by simpa using e0)) h1 h2)
  · rintro hc chunks last lens chunks' last' lens' rfl h2 hb hb' h h'
    exact c16_chunk_independent_partial nel lsps chunks chunks' last last' lens lens' h2.symm hb hb' hc h h'

/-! ## C17 -/

/-- under the same condition, and only then, is the text always the stream conversion of the content. -/
theorem c88_stream (nel lsps : Bool) (s : List Char) :
    (∀ chunks last lens, chunks.flatten ++ last = s → Completes ucd15 nel lsps (script chunks last) lens →
      output ucd15 nel lsps (script chunks last) lens = stream ucd15 nel lsps s) ↔
    s.head? ≠ some BOM ∧ Clear ucd15 nel lsps s := by
  constructor
  · intro h
    exact (c88_cuts nel lsps s).1 fun chunks last lens chunks' last' lens' h1 h2 c1 c2 => by
      rw [h chunks last lens h1 c1, h chunks' last' lens' h2 c2]
  · rintro ⟨hb, hc⟩ chunks last lens rfl h
    exact c17_reader_is_stream_partial nel lsps chunks last lens (Or.inr hb) hc h

/-! ## C18 -/

theorem valid_no_bom {s : List Char} (hv : isBasicText ucd15 s = true) : s.head? ≠ some BOM := by
  intro hc
  obtain ⟨-, -, h3⟩ := text_iff.1 hv
  have := (substr_iff.1 h3).1 BOM (List.mem_of_mem_head? hc)
  exact (ok_not_special this).2.2.2.2.2.2 rfl

/-- valid text that ends with U+A is delivered as it is, however it is cut, if and only if all its scalars are assigned. -/
theorem c88_reader_unchanged (nel lsps : Bool) (s : List Char) (hv : fromText (isBasicText ucd15) s = .ok s) (hnl : s = [] ∨ s.getLast? = some '\n') :
    (∀ chunks last lens, chunks.flatten ++ last = s → Completes ucd15 nel lsps (script chunks last) lens →
      output ucd15 nel lsps (script chunks last) lens = s) ↔ ∀ c ∈ s, isAssigned ucd15 c = true := by
  have hv := (fromText_ok_iff.1 hv).1
  constructor
  · intro h c hm
    cases ha : isAssigned ucd15 c with
    | true => rfl
    | false =>
      exfalso
      have hc : Clear ucd15 nel lsps s := (c88_cuts_without_empty_reads nel lsps s).1 fun chunks last lens chunks' last' lens' h1 h2 _ _ c1 c2 => by
        rw [h chunks last lens h1 c1, h chunks' last' lens' h2 c2]
      obtain ⟨l, h1⟩ := completes nel lsps [] s
      have hi := c47_reader_isolated_partial nel lsps [] s (single_safe s) hc l h1
      rw [h [] s l rfl h1] at hi
      obtain ⟨a, b, rfl⟩ := List.append_of_mem hm
      have hl := (hi a c b rfl ha).1
      rcases List.eq_nil_or_concat a with rfl | ⟨a', d, rfl⟩
      · simp at hl
      · rw [List.concat_eq_append] at *
        simp at hl
        subst hl
        have hf : form ucd15 nel lsps (a' ++ [CGJ] ++ c :: b) = a' ++ CGJ :: c :: b := by
          unfold form
          rw [dropBom_of_ne (valid_no_bom hv), translate_ok hv, if_pos hnl]; simp
        rw [hc a' c b hf] at ha
        simp at ha
  · rintro ha chunks last lens rfl h
    exact c18_reader_identity nel lsps chunks last lens hv ha hnl h

/-- A valid text with an unassigned scalar that even isolation does not save, and one that is delivered unchanged in any pieces. -/
example : fromText (isBasicText ucd15) ['͏', '͸', '͏', '\n'] = .ok ['͏', '͸', '͏', '\n'] ∧ ¬ (∀ c ∈ ['͏', '͸', '͏', '\n'], isAssigned ucd15 c = true) ∧
    fromText (isBasicText ucd15) ['é', '͏', '\n'] = .ok ['é', '͏', '\n'] ∧ (∀ c ∈ ['é', '͏', '\n'], isAssigned ucd15 c = true) := by
  decide +kernel

/-- The condition of `c88_cuts` decided for contents with and without such a pair. -/
example : Clear ucd15 false false ['͸', CGJ, 'a', '͸'] ∧ ¬ Clear ucd15 false false [CGJ, '\x1b', '[', 'm', '͸'] :=
  ⟨NoCgjUn.of_bool (by decide +kernel), fun h => absurd (h [] '͸' ['\n'] (by decide +kernel)) (by decide +kernel)⟩

/-! ## C02, C03, C04: the same for the lossy conversion -/

theorem lossy_differs {v s1 s2 : List Char} (hv : v = s1 ++ s2) (h0 : s1 ≠ [])
    (h : ∀ lens lens', Completes ucd15 false false (script [] v) lens → Completes ucd15 false false (script [s1] s2) lens' →
      output ucd15 false false (script [] v) lens ≠ output ucd15 false false (script [s1] s2) lens')
    {lens lens' : Nat → Nat} {t t' : List Char} (h1 : Converts [] v lens t) (h2 : Converts [s1] s2 lens' t') : t ≠ t' := by
  obtain ⟨m1, x1, r1, f1⟩ := read_of_converts h1
  obtain ⟨m2, x2, r2, f2⟩ := read_of_converts h2
  have hb1 : SliceReads [] v := by
    cases v
    · exact Or.inr rfl
    · exact Or.inl (by simp)
  have hb2 : SliceReads [s1] s2 := Or.inl (by simpa using h0)
  obtain ⟨g1, -, a2, a3⟩ := lossy_run textLaws15 hb1 r1
  obtain ⟨g2, -, b2, b3⟩ := lossy_run textLaws15 hb2 r2
  obtain ⟨l1, c1, n1, -, d1, d2, d3⟩ := readToEnd_run _ _ _ _ r1
  obtain ⟨l2, c2, n2, -, e1, e2, e3⟩ := readToEnd_run _ _ _ _ r2
  rw [f1] at a2
  rw [f2] at b2
  injection a2 with a2
  injection b2 with b2
  have hne := h l1 l2 ⟨c1, n1, d1, d2⟩ ⟨c2, n2, e1, e2⟩
  rw [output, output, d3, e3, a3, b3] at hne
  intro he
  apply hne
  have hcat : [s1].flatten ++ s2 = [].flatten ++ v := by simp [hv]
  rw [hcat] at b2 ⊢
  rw [a2, b2] at he
  rw [List.append_cancel_left he]

/-- C04: the lossy conversion does not depend on how the string is handed over if and only if, escape sequences aside, no U+034F comes directly
before an unassigned scalar. -/
theorem c88_lossy_cuts (v : List Char) :
    (∀ chunks last chunks' last', chunks.flatten ++ last = v → chunks'.flatten ++ last' = v → SliceReads chunks last → SliceReads chunks' last' →
      ∀ lens lens' t t', Converts chunks last lens t → Converts chunks' last' lens' t' → t = t') ↔ Clear ucd15 false false v := by
  constructor
  · intro h
    refine Classical.byContradiction fun hc => ?_
    obtain ⟨s1, s2, e1, e0, e2⟩ := cut_matters textLaws15 hc
    have hb1 : SliceReads [] v := by
      cases v
      · exact Or.inr rfl
      · exact Or.inl (by simp)
    have hb2 : SliceReads [s1] s2 := Or.inl (by simpa using e0)
    obtain ⟨t1, h1, -⟩ := c01_lossy_total_valid [] v hb1 (fun _ => normalizationBufferSize) (fun _ => Nat.le_refl _)
    obtain ⟨t2, h2, -⟩ := c01_lossy_total_valid [s1] s2 hb2 (fun _ => normalizationBufferSize) (fun _ => Nat.le_refl _)
    exact lossy_differs e1 e0 e2 h1 h2 (h [] v [s1] s2 rfl (by simp [e1]) hb1 hb2 _ _ _ _ h1 h2)
  · rintro hc chunks last chunks' last' rfl h2 hb hb' lens lens' t t' h h'
    obtain ⟨m1, x1, r1, f1⟩ := read_of_converts h
    obtain ⟨m2, x2, r2, f2⟩ := read_of_converts h'
    rw [lossy_eq textLaws15 hb hc r1] at f1
    rw [lossy_eq textLaws15 hb' (by rw [h2]; exact hc) r2, h2] at f2
    injection f1 with f1
    injection f2 with f2
    rw [← f1, ← f2]

/-- Basic Text is left as it is by the lossy conversion, however it is handed over, if and only if all its scalars are assigned. -/
theorem c88_lossy_unchanged (s : List Char) (hv : fromText (isBasicText ucd15) s = .ok s) :
    (∀ chunks last lens t, chunks.flatten ++ last = s → SliceReads chunks last → Converts chunks last lens t → t = s) ↔
    ∀ c ∈ s, isAssigned ucd15 c = true := by
  constructor
  · intro h c hm
    cases ha : isAssigned ucd15 c with
    | true => rfl
    | false =>
      exfalso
      have hc : Clear ucd15 false false s := (c88_lossy_cuts s).1 fun chunks last chunks' last' h1 h2 b1 b2 lens lens' t t' c1 c2 => by
        rw [h chunks last lens t h1 b1 c1, h chunks' last' lens' t' h2 b2 c2]
      have hb1 : SliceReads [] s := by
        cases s
        · exact Or.inr rfl
        · exact Or.inl (by simp)
      obtain ⟨t, h1, -⟩ := c01_lossy_total_valid [] s hb1 (fun _ => normalizationBufferSize) (fun _ => Nat.le_refl _)
      have hi := c47_lossy_isolated_partial s hc [] s rfl hb1 _ t h1
      rw [h [] s _ t rfl hb1 h1] at hi
      have hv := (fromText_ok_iff.1 hv).1
      obtain ⟨a, b, rfl⟩ := List.append_of_mem hm
      have hl := (hi a c b rfl ha).1
      rcases List.eq_nil_or_concat a with rfl | ⟨a', d, rfl⟩
      · simp at hl
      · rw [List.concat_eq_append] at *
        simp at hl
        subst hl
        have hf : ∃ e, form ucd15 false false (a' ++ [CGJ] ++ c :: b) = a' ++ CGJ :: c :: (b ++ e) := by
          unfold form
          rw [dropBom_of_ne (valid_no_bom hv), translate_ok hv]
          split
          · exact ⟨[], by simp⟩
          · exact ⟨['\n'], by simp⟩
        obtain ⟨e, hf⟩ := hf
        rw [hc a' c _ hf] at ha
        simp at ha
  · intro ha chunks last lens t hs hb h
    have hl : ∀ i, normalizationBufferSize ≤ (fun _ : Nat => normalizationBufferSize) i := fun _ => Nat.le_refl _
    have h2 := c02_lossy_fixes_valid s hv ha chunks last hs hb _ hl
    obtain ⟨m1, x1, r1, f1⟩ := read_of_converts h
    obtain ⟨m2, x2, r2, f2⟩ := read_of_converts h2
    have hc := clear_of (nel := false) (lsps := false) textLaws15 (Or.inl ha)
    rw [lossy_eq textLaws15 hb (by rw [hs]; exact hc) r1] at f1
    rw [lossy_eq textLaws15 hb (by rw [hs]; exact hc) r2] at f2
    injection f1 with f1
    injection f2 with f2
    rw [← f1, ← f2]

/-- converting again what a lossy conversion returned changes nothing, however it is handed over, if and only if the first result
has no unassigned scalar. -/
theorem c88_lossy_again (chunks : List (List Char)) (last t : List Char) (hb : SliceReads chunks last) (lens : Nat → Nat)
    (hl : ∀ i, normalizationBufferSize ≤ lens i) (h : Converts chunks last lens t) :
    (∀ chunks2 last2 lens2 t2, chunks2.flatten ++ last2 = t → SliceReads chunks2 last2 → Converts chunks2 last2 lens2 t2 → t2 = t) ↔
    ∀ c ∈ t, isAssigned ucd15 c = true := by
  obtain ⟨t', h1, h2⟩ := c01_lossy_total_valid chunks last hb lens hl
  rw [h1.unique h] at h2
  exact c88_lossy_unchanged t h2

/-! ## Conversions of a string in one piece

`Balanced`: every unassigned scalar with a U+034F directly before it has another unassigned scalar or a U+034F directly behind it. -/

/-- what the checked conversion makes of an accepted string is its normalization if and only if the string is `Balanced`. -/
theorem c89_normalizes (s t : List Char) (h : fromTextOwned ucd15 (isBasicText ucd15) s = .ok t) : t = Spec.normalize ucd15 s ↔ Balanced ucd15 s := by
  obtain ⟨-, rfl⟩ := (owned_ok_iff isBasicText_nil).1 h
  exact normChain_iff textLaws15 s

/-- the checked conversion leaves Basic Text as it is if and only if every unassigned scalar has a U+034F directly before it. -/
theorem c89_unchanged (s : List Char) (hv : fromText (isBasicText ucd15) s = .ok s) : fromTextOwned ucd15 (isBasicText ucd15) s = .ok s ↔
    ∀ a u b, s = a ++ u :: b → isAssigned ucd15 u = false → a.getLast? = some '͏' := by
  have hv := (fromText_ok_iff.1 hv).1
  rw [owned_ok_iff isBasicText_nil, normChain_of_nss textLaws15 (substr_iff.1 (text_substr hv)).2]
  constructor
  · rintro ⟨-, e⟩; exact (isolate_fix textLaws15 s).1 e.symm
  · intro h; exact ⟨acceptable_of_valid hv, ((isolate_fix textLaws15 s).2 h).symm⟩

/-- in what the checked conversion returns every unassigned scalar stands between two U+034F if and only if the string is `Balanced`. -/
theorem c89_isolates (s t : List Char) (h : fromTextOwned ucd15 (isBasicText ucd15) s = .ok t) : Isolated ucd15 t ↔ Balanced ucd15 s := by
  obtain ⟨-, rfl⟩ := (owned_ok_iff isBasicText_nil).1 h
  exact isolated_normChain_iff textLaws15 s

/-- what a reader delivers of a content that comes in one read is its stream conversion if and only if the content, escape sequences
aside, is `Balanced`. -/
theorem c89_single_read (nel lsps : Bool) (s : List Char) (lens : List Nat) (h : Completes ucd15 nel lsps (script [] s) lens) :
    output ucd15 nel lsps (script [] s) lens = stream ucd15 nel lsps s ↔ Balanced ucd15 (form ucd15 nel lsps s) := by
  rw [c17_reader_single_read nel lsps s lens h]
  exact normChain_iff textLaws15 _

/-- C47, exactly, for such a content. -/
theorem c89_single_read_isolates (nel lsps : Bool) (s : List Char) (lens : List Nat) (h : Completes ucd15 nel lsps (script [] s) lens) :
    Isolated ucd15 (output ucd15 nel lsps (script [] s) lens) ↔ Balanced ucd15 (form ucd15 nel lsps s) := by
  rw [c17_reader_single_read nel lsps s lens h]
  exact isolated_normChain_iff textLaws15 _

/-- Strings that are `Balanced` and not, and that are accepted. -/
example : Balanced ucd15 ['͏', '͸', '͹', 'a', '͏', '͸', '͏'] ∧ ¬ Balanced ucd15 ['͏', '͸', 'a'] ∧ ¬ Balanced ucd15 ['a', '͏', '͸'] ∧
    fromTextOwned ucd15 (isBasicText ucd15) ['͏', '͸', '͹', 'a', '͏', '͸', '͏'] = .ok ['͏', '͸', '͏', '͹', '͏', 'a', '͏', '͸', '͏'] := by
  decide +kernel

/-- Basic Text that the checked conversion changes, and that it does not. -/
example : fromTextOwned ucd15 (isBasicText ucd15) ['a', '͸'] = .ok ['a', '͏', '͸', '͏'] ∧ fromText (isBasicText ucd15) ['a', '͸'] = .ok ['a', '͸'] ∧
    fromTextOwned ucd15 (isBasicText ucd15) ['͏', '͸', 'a'] = .ok ['͏', '͸', 'a'] := by decide +kernel

/-- a string that `TextStr::from_text` accepts is in Basic Text form if and only if it does not end with U+0890 or U+0891 and every
unassigned scalar stands between two U+034F. -/
theorem c89_form (s : List Char) (h : fromText (isBasicText ucd15) s = .ok s) :
    BasicText s ↔ s.getLast? ≠ some '࢐' ∧ s.getLast? ≠ some '࢑' ∧ Isolated ucd15 s := by
  constructor
  · intro hb
    exact ⟨fun e => hb.ends _ e (Or.inr (by decide +kernel)), fun e => hb.ends _ e (Or.inr (by decide +kernel)), hb.isolated⟩
  · rintro ⟨h1, h2, h3⟩; exact c61_accepted_partial s h h1 h2 h3

/-- the checked conversion of a string is the document's strict conversion (including whether it succeeds) if and only if the string is
refused, or does not end with U+0890 or U+0891 and is `Balanced`. -/
theorem c89_strict (s : List Char) : (∀ t, fromTextOwned ucd15 (isBasicText ucd15) s = .ok t ↔ DocStrict s t) ↔
    (∀ t, fromTextOwned ucd15 (isBasicText ucd15) s ≠ .ok t) ∨ (s.getLast? ≠ some '࢐' ∧ s.getLast? ≠ some '࢑' ∧ Balanced ucd15 s) := by
  rcases Classical.em (∃ t, fromTextOwned ucd15 (isBasicText ucd15) s = .ok t) with ⟨t, ht⟩ | hno
  · obtain ⟨⟨h3, h4, h5⟩, rfl⟩ := (owned_ok_iff isBasicText_nil).1 ht
    have hl : ∀ c ∈ s.getLast?, c ≠ '࢐' → c ≠ '࢑' → ¬ NonEnder c := fun c hc e1 e2 hn => by
      have := h5 c hc
      rw [(c56_end_partial c e1 e2).2 hn] at this; simp at this
    constructor
    · intro h
      have hd := (h _).1 ht
      refine Or.inr ?_
      obtain ⟨-, -, h6, h7⟩ := docStrict_iff.1 hd
      exact ⟨fun e => h6 _ e (Or.inr (by decide +kernel)), fun e => h6 _ e (Or.inr (by decide +kernel)), (normChain_iff textLaws15 s).1 h7⟩
    · rintro (h | ⟨h1, h2, hb⟩) t
      · exact absurd ht (h _)
      · rw [owned_ok_iff isBasicText_nil, docStrict_iff, (normChain_iff textLaws15 s).2 hb]
        constructor
        · rintro ⟨-, e⟩
          exact ⟨h3, h4, fun c hc => hl c hc (fun e => h1 (e ▸ hc)) (fun e => h2 (e ▸ hc)), e⟩
        · rintro ⟨-, -, -, e⟩; exact ⟨⟨h3, h4, h5⟩, e⟩
  · have hno : ∀ t, fromTextOwned ucd15 (isBasicText ucd15) s ≠ .ok t := fun t h => hno ⟨t, h⟩
    refine ⟨fun _ => Or.inl hno, fun _ t => ⟨fun h => absurd h (hno t), fun h => ?_⟩⟩
    obtain ⟨h3, h4, h5, -⟩ := docStrict_iff.1 h
    refine absurd ((owned_ok_iff isBasicText_nil).2 ⟨⟨h3, h4, fun c hc => ?_⟩, rfl⟩) (hno _)
    cases he : isEnd c with
    | true => rfl
    | false =>
      refine absurd ((c56_end_partial c ?_ ?_).1 he) (h5 c hc)
      · rintro rfl; exact absurd he (by decide +kernel)
      · rintro rfl; exact absurd he (by decide +kernel)

end Verif
