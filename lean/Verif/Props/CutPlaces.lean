import Verif.CutPlaces
import Verif.Props.Cat
import Verif.Props.Everyday
import Verif.Props.Exact

/-!
# Where the reads of a source may end (C107), and reading a reader's text again (C69, C82, C93)

`EndsInside U s p` says that the part `p` of the text `s` ends after a U+34F that belongs to an unassigned scalar, and not later than before the
next U+34F or U+A.
-/

namespace Verif
open Ucd Spec

/-- Every unassigned scalar comes directly after a U+34F. -/
def Spec.Preceded (U : Ucd) (s : List Char) : Prop := ∀ a u b, s = a ++ u :: b → isAssigned U u = false → a.getLast? = some CGJ

theorem preceded_iff {s : List Char} : Preceded ucd15 s ↔ Pre ucd15 false s :=
  (isolate_fix textLaws15 s).symm.trans (isolate_eq_iff textLaws15)

/-- C107: whatever an error-free source hands over, in the text delivered so far every unassigned scalar comes directly after a U+34F. -/
theorem c107_preceded (nel lsps : Bool) (src : List Event) (hs : ∀ e ∈ src, e ≠ .err) (lens : List Nat) :
    Preceded ucd15 (output ucd15 nel lsps src lens) := by
  rw [output, run_delivered textLaws15 nel lsps hs]
  obtain ⟨es', -, h2, -, -⟩ := run_rel textLaws15 lens (.new nel lsps) src [] [] (Rel.init (U := ucd15) nel lsps)
  obtain ⟨segs, e, -⟩ := h2.segs.ex
  rw [List.nil_append, List.append_assoc] at e
  have := pre_flatMap textLaws15 segs false
  rw [← e] at this
  exact preceded_iff.2 (pre_append.1 this).1

/-- C107: Basic Text is delivered as it is, with U+A added if it does not end with one, exactly when each of its unassigned scalars comes directly
after a U+34F and none of the reads, except the last, ends inside such a pair. -/
theorem c107_delivered_iff (nel lsps : Bool) (chunks : List (List Char)) (last s : List Char) (hs : chunks.flatten ++ last = s)
    (hv : fromText (isBasicText ucd15) s = .ok s) (lens : List Nat) (h : Completes ucd15 nel lsps (script chunks last) lens) :
    output ucd15 nel lsps (script chunks last) lens = (if s = [] ∨ s.getLast? = some '\n' then s else s ++ ['\n']) ↔
    Preceded ucd15 s ∧ ∀ i, i < chunks.length → ¬ EndsInside ucd15 s (chunks.take (i + 1)).flatten := by
  have hv := (fromText_ok_iff.1 hv).1
  have e : (if s = [] ∨ s.getLast? = some '\n' then s else s ++ ['\n']) = s ++ nlOf s := by
    unfold nlOf; split <;> simp
  rw [e]
  constructor
  · intro he
    have hp := preceded_iff.1 (c107_preceded nel lsps _ (no_err_in_script chunks last) lens)
    rw [he] at hp
    have hp := (pre_nlOf textLaws15).1 hp
    exact ⟨preceded_iff.2 hp, (reads_unchanged_iff textLaws15 nel lsps chunks last hs hv hp lens h).1 he⟩
  · rintro ⟨hp, hi⟩
    exact (reads_unchanged_iff textLaws15 nel lsps chunks last hs hv (preceded_iff.1 hp) lens h).2 hi

/-- The case that it ends with U+A. -/
theorem c107_unchanged_iff (nel lsps : Bool) (chunks : List (List Char)) (last s : List Char) (hs : chunks.flatten ++ last = s)
    (hv : fromText (isBasicText ucd15) s = .ok s) (hnl : s = [] ∨ s.getLast? = some '\n') (lens : List Nat)
    (h : Completes ucd15 nel lsps (script chunks last) lens) :
    output ucd15 nel lsps (script chunks last) lens = s ↔
    Preceded ucd15 s ∧ ∀ i, i < chunks.length → ¬ EndsInside ucd15 s (chunks.take (i + 1)).flatten := by
  have := c107_delivered_iff nel lsps chunks last s hs hv lens h
  rwa [if_pos hnl] at this

/-- A read that hands over nothing, or ends with U+A so far, does not end inside. -/
theorem not_inside_of_newline {U : Ucd} {s p : List Char} (h : p = [] ∨ p.getLast? = some '\n') : ¬ EndsInside U s p := by
  rintro ⟨a, w, u, r, e1, -, -, e4⟩
  rw [e1] at h
  rcases h with h0 | h0
  · simp at h0
  · cases hw : w.getLast? with
    | none =>
      rw [List.getLast?_eq_none_iff.1 hw] at h0
      simp [CGJ] at h0
    | some d =>
      rw [List.getLast?_append, List.getLast?_cons, hw] at h0
      simp at h0
      exact (e4 d (List.mem_of_mem_getLast? hw)).2 h0

/-- C107: a source that hands over whole lines never matters: such text is delivered as it is. -/
theorem c107_lines (nel lsps : Bool) (chunks : List (List Char)) (last s : List Char) (hs : chunks.flatten ++ last = s)
    (hv : fromText (isBasicText ucd15) s = .ok s) (hp : Preceded ucd15 s) (hnl : s = [] ∨ s.getLast? = some '\n')
    (hc : ∀ c ∈ chunks, c = [] ∨ c.getLast? = some '\n') (lens : List Nat) (h : Completes ucd15 nel lsps (script chunks last) lens) :
    output ucd15 nel lsps (script chunks last) lens = s := by
  refine (c107_unchanged_iff nel lsps chunks last s hs hv hnl lens h).2 ⟨hp, fun i _ => not_inside_of_newline ?_⟩
  have key : ∀ cs : List (List Char), (∀ c ∈ cs, c = [] ∨ c.getLast? = some '\n') → cs.flatten = [] ∨ cs.flatten.getLast? = some '\n' := by
    intro cs
    induction cs with
    | nil => intro _; exact Or.inl rfl
    | cons c cs ih =>
      intro hcs
      rw [List.flatten_cons]
      rcases ih (fun x hx => hcs x (by simp [hx])) with h0 | h0
      · rw [h0, List.append_nil]; exact hcs c (by simp)
      · exact Or.inr (by rw [List.getLast?_append, h0]; rfl)
  exact key _ fun c hx => hc c (List.mem_of_mem_take hx)

/-- C107: and neither does a source in which no read ends with U+34F or with an unassigned scalar, if U+34F comes also behind each. -/
theorem c107_places (nel lsps : Bool) (chunks : List (List Char)) (last s : List Char) (hs : chunks.flatten ++ last = s)
    (hv : fromText (isBasicText ucd15) s = .ok s) (hi : Isolated ucd15 s) (hnl : s = [] ∨ s.getLast? = some '\n')
    (hc : ∀ i, i < chunks.length → ∀ c ∈ (chunks.take (i + 1)).flatten.getLast?, c ≠ CGJ ∧ isAssigned ucd15 c = true)
    (lens : List Nat) (h : Completes ucd15 nel lsps (script chunks last) lens) : output ucd15 nel lsps (script chunks last) lens = s := by
  refine (c107_unchanged_iff nel lsps chunks last s hs hv hnl lens h).2 ⟨fun a u b e hu => (hi a u b e hu).1, fun i hlt => ?_⟩
  rintro ⟨a, w, u, r, e1, e2, e3, e4⟩
  have hb := (hi (a ++ [CGJ]) u r (by simp [e2]) e3).2
  have hpre : a ++ CGJ :: w <+: a ++ CGJ :: u :: r := by
    rw [← e1, ← e2, ← hs]
    refine ⟨(chunks.drop (i + 1)).flatten ++ last, ?_⟩
    rw [← List.append_assoc, ← List.flatten_append, List.take_append_drop]
  obtain ⟨z, hz⟩ := hpre
  simp only [List.append_assoc, List.cons_append, List.append_cancel_left_eq, List.cons.injEq, true_and] at hz
  cases w with
  | nil => exact (hc i hlt CGJ (by rw [e1]; simp)).1 rfl
  | cons d w =>
    simp only [List.cons_append, List.cons.injEq] at hz
    obtain ⟨rfl, hz⟩ := hz
    cases w with
    | nil =>
      have := (hc i hlt d (by rw [e1]; simp)).2
      rw [this] at e3; simp at e3
    | cons f w =>
      rw [← hz] at hb
      simp at hb
      exact (e4 f (by simp)).1 hb

example : fromText (isBasicText ucd15) ['a', CGJ, '͸', CGJ, 'b', '\n'] = .ok ['a', CGJ, '͸', CGJ, 'b', '\n'] ∧
    Completes ucd15 false false (script [['a']] [CGJ, '͸', CGJ, 'b', '\n']) [136, 136] ∧
    output ucd15 false false (script [['a']] [CGJ, '͸', CGJ, 'b', '\n']) [136, 136] = ['a', CGJ, '͸', CGJ, 'b', '\n'] ∧
    output ucd15 false false (script [['a', CGJ, '͸']] [CGJ, 'b', '\n']) [136, 136] = ['a', CGJ, CGJ, '͸', CGJ, 'b', '\n'] ∧
    output ucd15 false false (script [['a', CGJ, '͸', CGJ]] ['b', '\n']) [136, 136] = ['a', CGJ, '͸', CGJ, 'b', '\n'] :=
  ⟨by decide +kernel, completes_of (by decide +kernel), by decide +kernel, by decide +kernel, by decide +kernel⟩

/-! ## C02, C03: the string conversion -/

/-- C02: the lossy conversion returns Basic Text as it is exactly when each of its unassigned scalars comes directly after a U+34F and none of the
reads from it, except the one that reports the end, ends inside such a pair. -/
theorem c02_lossy_fixes_iff (s : List Char) (hv : fromText (isBasicText ucd15) s = .ok s) (chunks : List (List Char)) (last : List Char)
    (hs : chunks.flatten ++ last = s) (hb : SliceReads chunks last) (lens : Nat → Nat) (t : List Char) (h : Converts chunks last lens t) :
    t = s ↔ Preceded ucd15 s ∧ ∀ i, i < chunks.length → ¬ EndsInside ucd15 s (chunks.take (i + 1)).flatten := by
  obtain ⟨m, text, h1, h2⟩ := read_of_converts h
  obtain ⟨segs, g1, g2, g3⟩ := lossy_run textLaws15 hb h1
  obtain ⟨l, r, n, -, d1, d2, d3⟩ := readToEnd_run _ _ _ _ h1
  have hc : Completes ucd15 false false (script chunks last) l := ⟨r, n, d1, d2⟩
  rw [← c107_delivered_iff false false chunks last s hs hv l hc, output, d3, g3]
  have hv := (fromText_ok_iff.1 hv).1
  obtain ⟨v1, v2, v3⟩ := lossyText_valid hv
  rw [hs, v2, List.nil_append, h2] at g2
  injection g2 with g2
  rw [hs, v1, ← g2]
  have hcr : s.getLast? ≠ some '\r' := by
    intro hx
    exact (ok_not_special ((substr_iff.1 (text_substr hv)).1 _ (List.mem_of_mem_getLast? hx))).1 rfl
  by_cases hn : s = [] ∨ s.getLast? = some '\n'
  · rw [if_pos hn, if_pos (by rcases hn with h0 | h0; exact Or.inl h0; exact Or.inr (Or.inl h0)), List.append_nil]
  · rw [if_neg hn, if_neg (by rintro (h0 | h0 | h0); exact hn (Or.inl h0); exact hn (Or.inr h0); exact hcr h0), List.append_cancel_right_eq]

/-- In what the lossy conversion returns every unassigned scalar comes directly after a U+34F. -/
theorem lossy_preceded (chunks : List (List Char)) (last : List Char) (hb : SliceReads chunks last) (lens : Nat → Nat) (t : List Char)
    (h : Converts chunks last lens t) : Preceded ucd15 t := by
  obtain ⟨m, text, h1, h2⟩ := read_of_converts h
  obtain ⟨segs, g1, g2, g3⟩ := lossy_run textLaws15 hb h1
  rw [h2] at g2
  injection g2 with g2
  rw [g2, preceded_iff]
  refine pre_append.2 ⟨?_, pre_flatMap textLaws15 segs _⟩
  unfold bomPrefix
  split
  · exact ⟨fun hc => (by rw [wj_assigned] at hc; simp at hc), trivial⟩
  · trivial

/-- C03: converting the result of the lossy conversion again returns it exactly when none of the reads from it, except the one that reports the
end, ends inside. -/
theorem c03_lossy_idempotent_iff (chunks chunks2 : List (List Char)) (last last2 t : List Char) (hb : SliceReads chunks last)
    (hb2 : SliceReads chunks2 last2) (lens lens2 : Nat → Nat) (hl : ∀ i, normalizationBufferSize ≤ lens i) (h : Converts chunks last lens t)
    (ht : chunks2.flatten ++ last2 = t) (t2 : List Char) (h2 : Converts chunks2 last2 lens2 t2) :
    t2 = t ↔ ∀ i, i < chunks2.length → ¬ EndsInside ucd15 t (chunks2.take (i + 1)).flatten := by
  obtain ⟨t', g1, g2⟩ := c01_lossy_total_valid chunks last hb lens hl
  rw [← h.unique g1] at g2
  rw [c02_lossy_fixes_iff t g2 chunks2 last2 ht hb2 lens2 t2 h2]
  exact ⟨fun hh => hh.2, fun hh => ⟨lossy_preceded chunks last hb lens t h, hh⟩⟩

example : fromTextLossy ucd15 [['\u0378']] [] [136, 136, 136] = some ['\u034f', '\u0378', '\u034f'] ∧
    fromTextLossy ucd15 [['\u034f', '\u0378', '\u034f']] [] [136, 136, 136] = some ['\u034f', '\u0378', '\u034f'] ∧
    fromTextLossy ucd15 [['\u034f', '\u0378'], ['\u034f']] [] [136, 136, 136, 136] = some ['\u034f', '\u034f', '\u0378', '\u034f'] ∧
    SliceReads [['\u034f', '\u0378', '\u034f']] [] ∧ SliceReads [['\u034f', '\u0378'], ['\u034f']] [] :=
  ⟨by decide +kernel, by decide +kernel, by decide +kernel, Or.inl (by simp), Or.inl (by simp)⟩

/-! ## C82: reading again -/

theorem ends_newline (nel lsps : Bool) (src : List Event) (hs : ∀ e ∈ src, e ≠ .err) (lens : List Nat) (h : Completes ucd15 nel lsps src lens) :
    output ucd15 nel lsps src lens = [] ∨ (output ucd15 nel lsps src lens).getLast? = some '\n' := by
  obtain ⟨r, n, hr, hok⟩ := h
  unfold output
  rw [run_delivered textLaws15 nel lsps hs]
  exact (c15_reader_ends_newline nel lsps src lens r n hr hok).1

/-- C82: what a reader has delivered is delivered again exactly when none of the reads from it, except the last, ends inside. -/
theorem c82_read_twice_iff (nel lsps nel' lsps' : Bool) (src : List Event) (hs : ∀ e ∈ src, e ≠ .err) (lens lens' : List Nat)
    (h : Completes ucd15 nel lsps src lens) (chunks : List (List Char)) (last : List Char)
    (hc : chunks.flatten ++ last = output ucd15 nel lsps src lens) (h' : Completes ucd15 nel' lsps' (script chunks last) lens') :
    output ucd15 nel' lsps' (script chunks last) lens' = output ucd15 nel lsps src lens ↔
    ∀ i, i < chunks.length → ¬ EndsInside ucd15 (output ucd15 nel lsps src lens) (chunks.take (i + 1)).flatten := by
  have hv : isBasicText ucd15 (output ucd15 nel lsps src lens) = true := (c14_reader_output_valid nel lsps _ hs lens).2.2 h
  rw [c107_unchanged_iff nel' lsps' chunks last _ hc (fromText_ok hv) (ends_newline nel lsps src hs lens h) lens' h']
  exact ⟨fun hh => hh.2, fun hh => ⟨c107_preceded nel lsps src hs lens, hh⟩⟩

/-! ## C69: reading two texts one after the other -/

theorem preceded_append {s t : List Char} (hs : Preceded ucd15 s) (ht : Preceded ucd15 t) : Preceded ucd15 (s ++ t) := by
  rw [preceded_iff] at *
  have key : ∀ hv : Bool, Pre ucd15 hv t := fun hv => by
    cases hv
    · exact ht
    · exact ht.weaken
  exact pre_append.2 ⟨hs, key _⟩

/-- C69: the concatenation of the texts of two readers is delivered again exactly when none of the reads from it, except the last, ends inside. -/
theorem c69_concatenation_read_iff (nel lsps nel' lsps' : Bool) (src src' : List Event) (hs : ∀ e ∈ src, e ≠ .err) (hs' : ∀ e ∈ src', e ≠ .err)
    (lens lens' : List Nat) (hc : Completes ucd15 nel lsps src lens) (hc' : Completes ucd15 nel' lsps' src' lens')
    (nel2 lsps2 : Bool) (chunks : List (List Char)) (last : List Char)
    (hd : chunks.flatten ++ last = output ucd15 nel lsps src lens ++ output ucd15 nel' lsps' src' lens') (lens2 : List Nat)
    (h2 : Completes ucd15 nel2 lsps2 (script chunks last) lens2) :
    output ucd15 nel2 lsps2 (script chunks last) lens2 = output ucd15 nel lsps src lens ++ output ucd15 nel' lsps' src' lens' ↔
    ∀ i, i < chunks.length →
      ¬ EndsInside ucd15 (output ucd15 nel lsps src lens ++ output ucd15 nel' lsps' src' lens') (chunks.take (i + 1)).flatten := by
  obtain ⟨h1, h3⟩ := c69_concatenation nel lsps nel' lsps' src src' hs hs' lens lens' hc hc'
  rw [c107_unchanged_iff nel2 lsps2 chunks last _ hd h1 h3.newline lens2 h2]
  exact ⟨fun hh => hh.2, fun hh => ⟨preceded_append (c107_preceded nel lsps src hs lens) (c107_preceded nel' lsps' src' hs' lens'), hh⟩⟩

/-- C69: in particular when the two texts are the two reads. -/
theorem c69_one_after_the_other (nel lsps nel' lsps' : Bool) (src src' : List Event) (hs : ∀ e ∈ src, e ≠ .err) (hs' : ∀ e ∈ src', e ≠ .err)
    (lens lens' : List Nat) (hc : Completes ucd15 nel lsps src lens) (hc' : Completes ucd15 nel' lsps' src' lens') (nel2 lsps2 : Bool) (lens2 : List Nat)
    (h2 : Completes ucd15 nel2 lsps2 (script [output ucd15 nel lsps src lens] (output ucd15 nel' lsps' src' lens')) lens2) :
    output ucd15 nel2 lsps2 (script [output ucd15 nel lsps src lens] (output ucd15 nel' lsps' src' lens')) lens2 =
      output ucd15 nel lsps src lens ++ output ucd15 nel' lsps' src' lens' := by
  refine (c69_concatenation_read_iff nel lsps nel' lsps' src src' hs hs' lens lens' hc hc' nel2 lsps2 _ _ (by simp) lens2 h2).2 fun i hi => ?_
  have : i = 0 := by simpa using hi
  subst this
  exact not_inside_of_newline (by simpa using ends_newline nel lsps src hs lens hc)

/-! ## C93: `text-cat | text-cat` -/

/-- C93: the second `text-cat` writes what the first has written exactly when none of its reads, except the last, ends inside (a scalar whose bytes
come in two pieces belongs to the second). -/
theorem c93_cat_twice_iff (bs bs' : List Bytes) (last last' : Bytes) (len len' : Nat) (hl : 136 ≤ len) (hl' : 136 ≤ len') (fuel : Nat)
    (res : IoCopyResult) (h : ioCopy ucd15 len fuel (.new false false) (byteScript bs last) ⟨[], []⟩ 0 = some res)
    (hs : bs'.flatten ++ last' = res.sink.sent) :
    ∃ res' text, (∃ k, ∀ fuel, k ≤ fuel → ioCopy ucd15 len' fuel (.new false false) (byteScript bs' last') ⟨[], []⟩ 0 = some res') ∧
      res.sink.sent = encode text ∧
      (res'.sink.sent = res.sink.sent ↔
        ∀ i, i < (decodeReads [] bs' last').1.length → ¬ EndsInside ucd15 text ((decodeReads [] bs' last').1.take (i + 1)).flatten) := by
  obtain ⟨n, hc⟩ := c67_bytes_end (bs.flatten ++ last) false false _ _ (c74_pieces_decode bs last) (fun _ => len) (fun _ => hl)
  obtain ⟨res0, ⟨k, h0⟩, h2, h3⟩ := copy_output false false (byteScript bs last) (ending_script _ _) len hl ⟨[], []⟩ rfl _ hc
  have e : res0 = res := by
    have := h0 (k + fuel) (by omega)
    rw [ioCopy_mono h (k + fuel) (by omega)] at this
    injection this with this
    exact this.symm
  subst e
  rw [List.nil_append] at h3
  obtain ⟨n', hc'⟩ := c67_bytes_end (bs'.flatten ++ last') false false _ _ (c74_pieces_decode bs' last') (fun _ => len') (fun _ => hl')
  obtain ⟨res', g1, g2, g3⟩ := copy_output false false (byteScript bs' last') (ending_script _ _) len' hl' ⟨[], []⟩ rfl _ hc'
  rw [List.nil_append] at g3
  have hd : (decodeReads [] bs' last').1.flatten ++ (decodeReads [] bs' last').2 = _ := c74_pieces_decode bs' last'
  rw [hs, h3, utf8Lossy_encode] at hd
  refine ⟨res', _, g1, h3, ?_⟩
  rw [← c82_read_twice_iff false false false false (byteScript bs last) (no_err_in_script _ _) _ _ hc _ _ hd hc', g3, h3]
  exact ⟨fun hh => encode_injective hh, fun hh => congrArg encode hh⟩

/-- The first `text-cat` and pieces of what it has written that the second leaves as they are. -/
example : (ioCopy ucd15 8192 4 (.new false false) (byteScript [] (encode ['\u0378', '\n'])) ⟨[], []⟩ 0).map (·.sink.sent) =
      some (encode ['\u034f', '\u0378', '\u034f', '\n']) ∧
    (ioCopy ucd15 8192 4 (.new false false) (byteScript [encode ['\u034f', '\u0378', '\u034f'], []] (encode ['\n'])) ⟨[], []⟩ 0).map (·.sink.sent) =
      some (encode ['\u034f', '\u0378', '\u034f', '\n']) := by
  decide +kernel

end Verif
