import Verif.Lines
import Verif.Props.Strings

/-!
# Properties of line reading (C41–C43)
-/

namespace Verif
open Ucd Spec

/-! ## C43 -/

/-- C43: when `read_text_line` succeeds, the buffer is the old content followed by the line read, and Basic Text. -/
theorem c43_ok_appends (buf : List Char) (src : List BufEvent) (n : Nat) (h : (readTextLine ucd15 buf src).ret = .ok n) :
    fromText (isBasicText ucd15) (readTextLine ucd15 buf src).buf = .ok (readTextLine ucd15 buf src).buf ∧
    ∃ line, (readTextLine ucd15 buf src).buf = buf ++ line ∧ (encode line).length = n ∧ '\n' ∉ line.dropLast ∧
      (encode line = (readUntil src).1 ∧ (readTextLine ucd15 buf src).src = (readUntil src).2.2) := by
  have key : ∀ line, encode line = (readUntil src).1 → '\n' ∉ line.dropLast := by
    intro line hl hm
    obtain ⟨p, hp, hq⟩ := readUntil_shape src
    rw [← hl] at hq
    obtain ⟨a, b, hab⟩ := List.append_of_mem hm
    rcases List.eq_nil_or_concat line with rfl | ⟨l, c, rfl⟩
    · simp at hm
    · rw [List.concat_eq_append] at *
      rw [List.dropLast_concat] at hab
      subst hab
      have e : encode (a ++ '\n' :: b ++ [c]) = encode a ++ 10 :: (encode b ++ encodeChar c) := by
        simp [encode, show encodeChar '\n' = [10] by decide]
      rw [e] at hq
      rcases hq with hq | ⟨hq, -⟩
      · exact hp (by rw [← hq]; simp)
      · have hne := encodeChar_ne_nil c
        rcases List.eq_nil_or_concat (encodeChar c) with h0 | ⟨x, y, h0⟩
        · exact hne h0
        · rw [h0, List.concat_eq_append, show encode a ++ 10 :: (encode b ++ (x ++ [y])) = (encode a ++ 10 :: (encode b ++ x)) ++ [y] by simp] at hq
          exact hp (by rw [← (List.append_inj' hq rfl).1]; simp)
  unfold readTextLine readLine at h ⊢
  simp only at h ⊢
  cases hf : fromUtf8 (readUntil src).1 with
  | none =>
    rw [hf] at h
    exfalso
    cases hr : (readUntil src).2.1 <;> simp [hr] at h
  | some s =>
    rw [hf] at h
    have hs := fromUtf8_some hf
    cases hr : (readUntil src).2.1 with
    | false => simp [hr] at h
    | true =>
      simp only [hr, if_true] at h ⊢
      split at h
      · rename_i hv
        rw [if_pos hv]
        simp only [LineRet.ok.injEq] at h
        exact ⟨fromText_ok hv, s, rfl, by rw [← h, hs], key s hs.symm, hs.symm, rfl⟩
      · simp at h

/-- When it fails and the source did not, the buffer holds Basic Text: it is unchanged after bytes that are not UTF-8, and
empty after text that is not Basic Text. -/
theorem c43_err_valid_partial (buf : List Char) (hb : fromText (isBasicText ucd15) buf = .ok buf) (src : List BufEvent)
    (h : (readTextLine ucd15 buf src).ret ≠ .ioError) :
    fromText (isBasicText ucd15) (readTextLine ucd15 buf src).buf = .ok (readTextLine ucd15 buf src).buf ∧
    ((readTextLine ucd15 buf src).ret = .notUtf8 → (readTextLine ucd15 buf src).buf = buf) ∧
    ((readTextLine ucd15 buf src).ret = .notText → (readTextLine ucd15 buf src).buf = []) := by
  unfold readTextLine readLine at h ⊢
  simp only at h ⊢
  cases hf : fromUtf8 (readUntil src).1 with
  | none =>
    rw [hf] at h
    cases hr : (readUntil src).2.1 with
    | false => simp [hr] at h
    | true => simp [hb]
  | some s =>
    rw [hf] at h
    cases hr : (readUntil src).2.1 with
    | false => simp [hr] at h
    | true =>
      simp only [if_true]
      split
      · rename_i hv
        exact ⟨fromText_ok hv, by simp⟩
      · exact ⟨fromText_ok isBasicText_nil, by simp⟩

/-- A source that does not fail never makes `read_text_line` report an I/O error. -/
theorem c43_no_io_error (buf : List Char) (src : List BufEvent) (hs : .err ∉ src) : (readTextLine ucd15 buf src).ret ≠ .ioError := by
  have hr : (readUntil src).2.1 = true := by
    clear buf
    induction src with
    | nil => rfl
    | cons e src ih =>
      simp only [List.mem_cons, not_or] at hs
      cases e with
      | err => exact absurd rfl hs.1
      | interrupted => exact ih hs.2
      | data b =>
        rw [readUntil]
        split
        · rfl
        · split
          · rfl
          · exact ih hs.2
  unfold readTextLine readLine
  simp only [hr, if_true]
  cases hf : fromUtf8 (readUntil src).1 with
  | none => simp
  | some s =>
    simp only
    split <;> simp

example : readTextLine ucd15 ['a', '\n'] [.data [98], .interrupted, .data [99, 10, 100]] =
    { ret := .ok 3, buf := ['a', '\n', 'b', 'c', '\n'], src := [.data [100]] } := by decide +kernel

/-- When the source fails in the middle of a line, the caller's `TextString` is left with unchecked text, here a U+1B. -/
theorem c43_refuted_source_error : readTextLine ucd15 ['a'] [.data [27, 91], .err] = { ret := .ioError, buf := ['a', '\x1b', '['], src := [] } ∧
    fromText (isBasicText ucd15) ['a'] = .ok ['a'] ∧ ¬ fromText (isBasicText ucd15) ['a', '\x1b', '['] = .ok ['a', '\x1b', '['] := by decide +kernel

/-- A line that is not Basic Text also loses the lines read before it. -/
theorem c43_failure_clears : readTextLine ucd15 ['a', '\n'] [.data [27, 10]] = { ret := .notText, buf := [], src := [] } := by decide +kernel

/-! ## C41 -/

/-- What `text_lines` should yield for a line given as bytes. -/
def lineItem (l : Bytes) : Next :=
  match fromUtf8 l with
  | none => .err .notUtf8
  | some s => if fromText (isBasicText ucd15) s = .ok s then .item s else .err .notText

theorem text_nl {s : List Char} : isBasicText ucd15 (s ++ ['\n']) = true ↔ (∀ c ∈ s.head?, isStart ucd15 c = true) ∧ isBasicTextSubstr ucd15 s = true := by
  have hnl : isStart ucd15 '\n' = true := by decide +kernel
  rw [text_iff, substr_iff, substr_iff, nss_concat_nl]
  constructor
  · rintro ⟨h1, -, h3, h4⟩
    refine ⟨?_, fun c hc => h3 c (by simp [hc]), h4⟩
    intro c hc
    cases s with
    | nil => simp at hc
    | cons d s => exact h1 c (by simpa using hc)
  · rintro ⟨h1, h3, h4⟩
    refine ⟨?_, by simpa using end_nl, ?_, h4⟩
    · intro c hc
      cases s with
      | nil => simp at hc; rw [← hc]; exact hnl
      | cons d s => exact h1 c (by simpa using hc)
    · intro c hc
      simp only [List.mem_append, List.mem_singleton] at hc
      rcases hc with hc | rfl
      · exact h3 c hc
      · decide +kernel
where
  nss_concat_nl {s : List Char} : ucd15.isNfcStreamSafe (s ++ ['\n']) = true ↔ ucd15.isNfcStreamSafe s = true := by
    have := nss_inert (x := s) (y := []) textLaws15.law (inert_lf textLaws15)
    rw [this]
    exact ⟨fun h => h.1, fun h => ⟨h, nss_nil⟩⟩

theorem textLinesNext_line (debug : Bool) {src src' : List BufEvent} {l : Bytes} (h : readUntil src = (l ++ [10], true, src')) :
    textLinesNext ucd15 debug src = (lineItem l, src') := by
  have hne : (l ++ [10] : Bytes).length = l.length + 1 := by simp
  unfold textLinesNext readTextLine readLine lineItem
  simp only [h, fromUtf8_nl]
  cases hf : fromUtf8 l with
  | none => simp
  | some s =>
    simp only [Option.map_some, if_true, List.nil_append, hne]
    by_cases hv : isBasicText ucd15 (s ++ ['\n']) = true
    · rw [if_pos hv]
      obtain ⟨h1, h2⟩ := text_nl.1 hv
      have hcr : s.getLast? ≠ some '\r' := by
        intro hc
        have := (substr_iff.1 h2).1 '\r' (List.mem_of_getLast? hc)
        exact absurd this (by decide +kernel)
      have hp : popLine debug (s ++ ['\n']) = some s := by
        unfold popLine
        have : (s.getLast? == some '\r') = false := by simpa using hcr
        simp [this]
      simp only [hp]
      cases hq : s.getLast? with
      | none =>
        rw [List.getLast?_eq_none_iff] at hq
        subst hq
        rw [if_pos (fromText_ok isBasicText_nil)]
      | some c =>
        simp only
        by_cases he : isEnd c = true
        · rw [if_pos he, if_pos]
          exact fromText_ok (text_iff.2 ⟨h1, by rw [hq]; simpa using he, h2⟩)
        · rw [if_neg he, if_neg]
          intro hc
          have := (text_iff.1 (fromText_ok_iff.1 hc).1).2.1 c (by rw [hq]; simp)
          exact he this
    · rw [if_neg hv]
      simp only
      rw [if_neg]
      intro hc
      obtain ⟨h1, -, h2⟩ := text_iff.1 (fromText_ok_iff.1 hc).1
      exact hv (text_nl.2 ⟨h1, h2⟩)

theorem next_end (src : List BufEvent) (hs : Steady src) (hb : bytesOf src = []) : readUntil src = ([], true, []) := by
  rw [readUntil_rest src hs (by rw [hb]; simp), hb]

/-- C41: `text_lines` judges each terminated line of a content on its own, in order, with or without debug assertions: a
line that is Basic Text is yielded, any other is an error. -/
theorem c41_text_lines (debug : Bool) (lines : List Bytes) (hl : ∀ l ∈ lines, 10 ∉ l) (src : List BufEvent) (hs : Steady src)
    (hb : bytesOf src = lines.flatMap (· ++ [10])) (n : Nat) (hn : lines.length < n) :
    iterate (textLinesNext ucd15 debug) n src = lines.map lineItem ++ [.done] := by
  induction lines generalizing src n with
  | nil =>
    obtain ⟨n, rfl⟩ : ∃ m, n = m + 1 := ⟨n - 1, by simp at hn; omega⟩
    have h := next_end src hs (by simpa using hb)
    have : textLinesNext ucd15 debug src = (.done, []) := by
      have e0 : fromUtf8 [] = some [] := rfl
      have e1 : isBasicText ucd15 [] = true := isBasicText_nil
      unfold textLinesNext readTextLine readLine
      simp [h, e0, e1]
    simp [iterate, this]
  | cons l lines ih =>
    obtain ⟨n, rfl⟩ : ∃ m, n = m + 1 := ⟨n - 1, by simp at hn; omega⟩
    have hb' : bytesOf src = l ++ 10 :: lines.flatMap (· ++ [10]) := by rw [hb]; simp
    obtain ⟨src', h1, h2, h3⟩ := readUntil_line src _ _ hs hb' (hl l (by simp))
    have hx := textLinesNext_line debug h1
    have hi := ih (fun x hx => hl x (by simp [hx])) src' h2 h3 n (by simp at hn; omega)
    have hit : (∃ t, lineItem l = .item t) ∨ ∃ e, lineItem l = .err e := by
      unfold lineItem
      split
      · exact Or.inr ⟨_, rfl⟩
      · split
        · exact Or.inl ⟨_, rfl⟩
        · exact Or.inr ⟨_, rfl⟩
    rw [iterate]
    simp only [hx]
    rcases hit with ⟨t, ht⟩ | ⟨e, he⟩
    · simp [ht, hi]
    · simp [he, hi]

/-- So if every line of the content is Basic Text, `text_lines` yields the lines. -/
theorem c41_lines_partial (debug : Bool) (lines : List (List Char)) (hl : ∀ l ∈ lines, '\n' ∉ l ∧ fromText (isBasicText ucd15) l = .ok l)
    (src : List BufEvent) (hs : Steady src) (hb : bytesOf src = encode (lines.flatMap (· ++ ['\n']))) (n : Nat) (hn : lines.length < n) :
    iterate (textLinesNext ucd15 debug) n src = lines.map .item ++ [.done] := by
  have hmem : ∀ s : List Char, 10 ∈ encode s → '\n' ∈ s := by
    intro s hs
    obtain ⟨c, hc, h10⟩ := List.mem_flatMap.1 hs
    obtain ⟨b, r, e, hb, hr⟩ := encodeChar_head c
    rw [e] at h10
    simp only [List.mem_cons] at h10
    rcases h10 with rfl | h10
    · have : c = '\n' := by
        apply encodeChar_last
        have hd := decode1_encode c []
        rw [e] at hd
        simp only [List.cons_append, decode1] at hd
        rw [if_pos (by decide)] at hd
        simp at hd
        rw [e, hd.2]; rfl
      exact this ▸ hc
    · exact absurd (hr 10 h10) (by decide)
  have := c41_text_lines debug (lines.map encode) (by
    intro l hm h10
    obtain ⟨s, hs, rfl⟩ := List.mem_map.1 hm
    exact (hl s hs).1 (hmem s h10)) src hs (by
      rw [hb, List.flatMap_map]
      clear hb hn hl
      induction lines with
      | nil => rfl
      | cons l ls ih => simp only [List.flatMap_cons, encode_append, ih, encode_nl]) n (by simpa using hn)
  rw [this, List.map_map]
  congr 1
  apply List.map_congr_left
  intro l hm
  simp only [Function.comp, lineItem, fromUtf8_encode]
  rw [if_pos (hl l hm).2]

example : iterate (textLinesNext ucd15 true) 4 [.data [97], .data [98, 10, 10, 99], .interrupted, .data [10]] =
    [.item ['a', 'b'], .item [], .item ['c'], .done] := by decide +kernel

/-- The content may be Basic Text though a line is not: a line may begin with a combining mark or end with a joiner. -/
theorem c41_refuted_lines : fromText (isBasicText ucd15) ['a', '\n', '́', '\n', 'b', '‍', '\n'] =
      .ok ['a', '\n', '́', '\n', 'b', '‍', '\n'] ∧
    iterate (textLinesNext ucd15 true) 5 [.data (encode ['a', '\n', '́', '\n', 'b', '‍', '\n'])] =
      [.item ['a'], .err .notText, .err .notText, .done] := by decide +kernel

/-- A last line that is not terminated loses its last scalar, or stops the program with debug assertions. -/
theorem c41_refuted_unterminated : iterate (textLinesNext ucd15 false) 3 [.data (encode ['a', '\n', 'b', 'c'])] = [.item ['a'], .item ['b'], .done] ∧
    iterate (textLinesNext ucd15 true) 3 [.data (encode ['a', '\n', 'b', 'c'])] = [.item ['a'], .panic] := by decide +kernel

/-! ## C42 -/

/-- `t` is something `TextString::from_text_lossy` can return for `v`. -/
def LossyOf (v t : List Char) : Prop :=
  ∃ (chunks : List (List Char)) (last : List Char) (lens : Nat → Nat), chunks.flatten ++ last = v ∧ SliceReads chunks last ∧
    (∀ i, normalizationBufferSize ≤ lens i) ∧ Converts chunks last lens t

/-- There is always something. -/
theorem lossyOf_exists (v : List Char) : ∃ t, LossyOf v t := by
  have hb : SliceReads [] v := by
    by_cases h : v = []
    · exact Or.inr (by simp [h])
    · exact Or.inl (by simp [h])
  obtain ⟨t, h, -⟩ := c01_lossy_total_valid [] v hb (fun _ => normalizationBufferSize) (fun _ => Nat.le_refl _)
  exact ⟨t, [], v, _, rfl, hb, fun _ => Nat.le_refl _, h⟩

theorem LossyOf.valid {v t : List Char} (h : LossyOf v t) : isBasicText ucd15 t = true := by
  obtain ⟨chunks, last, lens, -, hb, hl, hc⟩ := h
  obtain ⟨t', h1, h2⟩ := c01_lossy_total_valid chunks last hb lens hl
  rw [hc.unique h1]
  exact (fromText_ok_iff.1 h2).1

/-- The conversion of a terminated line ends with a newline. -/
theorem LossyOf.nl {s t : List Char} (h : LossyOf (s ++ ['\n']) t) : t.getLast? = some '\n' := by
  obtain ⟨chunks, last, lens, hv, hb, hl, hc⟩ := h
  obtain ⟨m, text, h1, h2⟩ := read_of_converts hc
  obtain ⟨segs, g1, g2, g3⟩ := lossy_run textLaws15 hb h1
  rw [h2] at g2
  injection g2 with g2
  have hd : (dropBom (chunks.flatten ++ last)).getLast? = some '\n' := by
    rw [hv]
    cases s with
    | nil => decide
    | cons c s =>
      rw [List.cons_append, dropBom, dropOne]
      split
      · simp
      · rw [← List.cons_append, List.getLast?_concat]
  have hcl : Closed (dropBom (chunks.flatten ++ last)) := Or.inr (Or.inl hd)
  rw [if_pos hcl, List.append_nil] at g3
  rw [lossyText, if_pos hcl] at g1
  have hne : dropBom (chunks.flatten ++ last) ≠ [] := by intro hc; rw [hc] at hd; simp at hd
  obtain ⟨lens', r, n, -, k1, k2, k3⟩ := readToEnd_run _ _ _ _ h1
  obtain ⟨k4, -⟩ := c15_end k1 k2
  rw [← run_delivered textLaws15 false false (ending_script chunks last).no_err, k3] at k4
  have htext : text ≠ [] := by
    rw [g3]
    intro hc
    have hall : ∀ x ∈ segs, x = [] := by
      intro x hx
      have : normChain ucd15 x = [] := List.flatMap_eq_nil_iff.1 hc x hx
      exact Classical.byContradiction fun h => normChain_ne_nil textLaws15 h this
    have : segs.flatten = [] := List.flatten_eq_nil_iff.2 hall
    rw [this] at g1
    exact translate_ne hne g1.symm
  have hlast := k4.resolve_left htext
  rw [g2, ← g3, List.getLast?_append, hlast]; rfl
where
  c15_end {lens : List Nat} {r : ReadResult} {n : Nat} {src : List Event} (h1 : (readMany ucd15 lens (.new false false) src).getLast? = some r)
      (h2 : r.ret = .ok n .end_) := run_end textLaws15 h1 h2
  translate_ne {s : List Char} (h : s ≠ []) : translate ucd15 false false s ≠ [] := by
    have ht := tokens_ne_nil (fin := finCan) (one := single false false) _ s (Nat.le_refl _) h
    unfold translate
    simp only
    split
    · rename_i hc
      rcases hc with hc | hc
      · exact absurd hc ht
      · have hm := List.mem_of_getLast? hc
        intro h0
        have g : ∀ x, guardEnd x = [] → x = [] := by
          intro x; unfold guardEnd; split
          · split <;> simp
          · exact id
        have g' : ∀ x, guardStart ucd15 x = [] → x = [] := by
          intro x; unfold guardStart; split
          · split <;> simp
          · exact id
        have := List.flatMap_eq_nil_iff.1 (g' _ (g _ h0)) _ hm
        simp [Tok.out] at this
    · simp

/-- The converted line without its newline, with U+34F after a joiner. -/
theorem guarded_pop {t : List Char} (h : isBasicText ucd15 t = true) : isBasicText ucd15 (guardEnd t.dropLast) = true := by
  rcases List.eq_nil_or_concat t with rfl | ⟨l, c, rfl⟩
  · exact h
  · rw [List.concat_eq_append] at *
    rw [List.dropLast_concat]
    obtain ⟨h1, -, h3⟩ := text_iff.1 h
    have h3 := substr_prefix textLaws15 h3
    have h1' : ∀ c ∈ l.head?, isStart ucd15 c = true := by
      intro d hd
      apply h1
      cases l with
      | nil => simp at hd
      | cons a l => simpa using hd
    unfold guardEnd
    split
    · rename_i d0 hd0
      split
      · rename_i he
        exact text_iff.2 ⟨h1', by rw [hd0]; simpa using he, h3⟩
      · refine text_iff.2 ⟨?_, by simpa using end_cgj, ?_⟩
        · intro d hd
          apply h1'
          cases l with
          | nil => simp at hd0
          | cons a l => simpa using hd
        · obtain ⟨h4, h5⟩ := substr_iff.1 h3
          refine substr_iff.2 ⟨?_, ?_⟩
          · intro d hd
            simp only [List.mem_append, List.mem_singleton] at hd
            rcases hd with hd | rfl
            · exact h4 d hd
            · exact ok_cgj
          · exact (nss_inert (x := l) (y := []) textLaws15.law textLaws15.law.inert_cgj).2 ⟨h5, nss_nil⟩
    · exact text_iff.2 ⟨h1', by rename_i hq; rw [hq]; simp, h3⟩

theorem lossyNext_item {conv : List Char → List Char} {debug : Bool} {src : List BufEvent} {t : List Char} {s' : List BufEvent}
    (h : textLinesLossyNext conv debug src = (.item t, s')) : ∃ v, t = guardEnd (conv v).dropLast := by
  unfold textLinesLossyNext at h
  simp only at h
  split at h
  · simp at h
  · rename_i hret
    split at h
    · simp at h
    · rename_i buf hp
      have hbuf : buf = (readTextLineLossy conv [] src).buf.dropLast := by
        unfold popLine at hp
        split at hp
        · simp at hp
        · injection hp with hp; exact hp.symm
      have hcv : ∃ v, (readTextLineLossy conv [] src).buf = conv v := by
        unfold readTextLineLossy at hret ⊢
        simp only at hret ⊢
        cases hq : (readLine [] src).ret with
        | ok n => exact ⟨_, rfl⟩
        | _ => simp [hq] at hret
      obtain ⟨v, hv⟩ := hcv
      refine ⟨v, ?_⟩
      rw [← hv, ← hbuf]
      unfold guardEnd
      split at h
      · rename_i c hc
        simp only [Prod.mk.injEq, Next.item.injEq] at h
        rw [hc]; exact h.1.symm
      · rename_i hc
        simp only [Prod.mk.injEq, Next.item.injEq] at h
        rw [hc]; exact h.1.symm
  · simp at h

/-- C42: every item of `text_lines_lossy` is Basic Text, whatever the source. -/
theorem c42_lossy_lines_valid (conv : List Char → List Char) (hc : ∀ v, LossyOf v (conv v)) (debug : Bool) (src : List BufEvent) (n : Nat) (t : List Char)
    (h : .item t ∈ iterate (textLinesLossyNext conv debug) n src) : fromText (isBasicText ucd15) t = .ok t := by
  induction n generalizing src with
  | zero => simp [iterate] at h
  | succ n ih =>
    rw [iterate] at h
    cases hx : textLinesLossyNext conv debug src with
    | mk i src' =>
      simp only [hx] at h
      cases i with
      | done => simp at h
      | panic => simp at h
      | err e =>
        simp only [List.mem_cons, reduceCtorEq, false_or] at h
        exact ih _ h
      | item u =>
        simp only [List.mem_cons, Next.item.injEq] at h
        rcases h with rfl | h
        · obtain ⟨v, rfl⟩ := lossyNext_item hx
          exact fromText_ok (guarded_pop (hc v).valid)
        · exact ih _ h

/-- For a content of terminated lines there is one item for each line, in order, and no panic, with or without debug
assertions: the line's conversion without its newline, with U+34F after a joiner. -/
theorem c42_lossy_lines (conv : List Char → List Char) (hc : ∀ v, LossyOf v (conv v)) (debug : Bool) (lines : List (List Char)) (hl : ∀ l ∈ lines, 10 ∉ encode l)
    (src : List BufEvent) (hs : Steady src) (hb : bytesOf src = lines.flatMap (encode · ++ [10])) (n : Nat) (hn : lines.length < n) :
    iterate (textLinesLossyNext conv debug) n src = lines.map (fun l => .item (guardEnd (conv (l ++ ['\n'])).dropLast)) ++ [.done] := by
  induction lines generalizing src n with
  | nil =>
    obtain ⟨n, rfl⟩ : ∃ m, n = m + 1 := ⟨n - 1, by simp at hn; omega⟩
    have h := next_end src hs (by simpa using hb)
    have : textLinesLossyNext conv debug src = (.done, []) := by
      have e0 : fromUtf8 [] = some [] := rfl
      unfold textLinesLossyNext readTextLineLossy readLine
      simp [h, e0]
    simp [iterate, this]
  | cons l lines ih =>
    obtain ⟨n, rfl⟩ : ∃ m, n = m + 1 := ⟨n - 1, by simp at hn; omega⟩
    have hb' : bytesOf src = encode l ++ 10 :: lines.flatMap (encode · ++ [10]) := by rw [hb]; simp
    obtain ⟨src', h1, h2, h3⟩ := readUntil_line src _ _ hs hb' (hl l (by simp))
    have hi := ih (fun x hx => hl x (by simp [hx])) src' h2 h3 n (by simp at hn; omega)
    have hx : textLinesLossyNext conv debug src = (.item (guardEnd (conv (l ++ ['\n'])).dropLast), src') := by
      have hv := hc (l ++ ['\n'])
      have hn := hv.nl
      have hok := hv.valid
      generalize hcv : conv (l ++ ['\n']) = t at hn hok ⊢
      have hne : (encode l ++ [10] : Bytes).length = (encode l).length + 1 := by simp
      have hp : popLine debug t = some t.dropLast := by
        unfold popLine
        have : (t.dropLast.getLast? == some '\r') = false := by
          rw [beq_eq_false_iff_ne]
          intro hq
          have hm : '\r' ∈ t := List.dropLast_subset _ (List.mem_of_getLast? hq)
          exact absurd ((substr_iff.1 (text_substr hok)).1 _ hm) (by decide +kernel)
        simp [this, hn]
      unfold textLinesLossyNext readTextLineLossy readLine
      simp only [h1, fromUtf8_nl, fromUtf8_encode, Option.map_some, if_true, List.nil_append, hne, hcv, hp]
      unfold guardEnd
      cases hq : t.dropLast.getLast? <;> rfl
    rw [iterate]
    simp [hx, hi]

/-- Such a `conv` exists. -/
example : ∃ conv : List Char → List Char, ∀ v, LossyOf v (conv v) :=
  ⟨fun v => (lossyOf_exists v).choose, fun v => (lossyOf_exists v).choose_spec⟩

/-- As for `text_lines`, a last line that is not terminated loses its last scalar, or stops the program with debug assertions. -/
theorem c42_unterminated (conv : List Char → List Char) (hv : ∀ v, LossyOf v (conv v)) :
    iterate (textLinesLossyNext conv false) 2 [.data [97, 98]] = [.item ['a'], .done] ∧
    iterate (textLinesLossyNext conv true) 2 [.data [97, 98]] = [.panic] := by
  have hc : conv ['a', 'b'] = ['a', 'b'] := by
    obtain ⟨chunks, last, lens, h1, h2, h3, h4⟩ := hv ['a', 'b']
    exact h4.unique (c02_lossy_fixes_valid ['a', 'b'] (by decide +kernel) (by decide +kernel) chunks last h1 h2 lens h3)
  have e : fromUtf8 [97, 98] = some ['a', 'b'] := by decide
  have e0 : fromUtf8 [] = some [] := rfl
  have e1 : isEnd 'a' = true := by decide +kernel
  constructor
  · simp [iterate, textLinesLossyNext, readTextLineLossy, readLine, readUntil, e, e0, hc, popLine, e1]
  · simp [iterate, textLinesLossyNext, readTextLineLossy, readLine, readUntil, e, hc, popLine]

/-! ## `read_text_line_lossy` -/

/-- C43 for `read_text_line_lossy`: when it succeeds, the buffer is the conversion of the old content followed by the line
read (the old content is converted again), and Basic Text. -/
theorem c43_lossy_ok (conv : List Char → List Char) (hc : ∀ v, LossyOf v (conv v)) (buf : List Char) (src : List BufEvent) (n : Nat)
    (h : (readTextLineLossy conv buf src).ret = .ok n) :
    fromText (isBasicText ucd15) (readTextLineLossy conv buf src).buf = .ok (readTextLineLossy conv buf src).buf ∧
    ∃ line, (readTextLineLossy conv buf src).buf = conv (buf ++ line) ∧ (encode line).length = n ∧ encode line = (readUntil src).1 ∧
      (readTextLineLossy conv buf src).src = (readUntil src).2.2 := by
  unfold readTextLineLossy readLine at h ⊢
  simp only at h ⊢
  cases hf : fromUtf8 (readUntil src).1 with
  | none =>
    rw [hf] at h
    exfalso
    cases hr : (readUntil src).2.1 <;> simp [hr] at h
  | some s =>
    rw [hf] at h
    have hs := fromUtf8_some hf
    cases hr : (readUntil src).2.1 with
    | false => simp [hr] at h
    | true =>
      simp only [hr, if_true, LineRet.ok.injEq] at h ⊢
      exact ⟨fromText_ok (hc _).valid, s, rfl, by rw [← h, hs], hs.symm, trivial⟩

/-- When it fails, nothing is converted: after bytes that are not UTF-8 the buffer is unchanged, and after a failing source it
holds what was read so far. -/
theorem c43_lossy_err_partial (conv : List Char → List Char) (buf : List Char) (src : List BufEvent) :
    (readTextLineLossy conv buf src).ret ≠ .notText ∧
    ((readTextLineLossy conv buf src).ret = .notUtf8 → (readTextLineLossy conv buf src).buf = buf) ∧
    ((readTextLineLossy conv buf src).ret = .ioError →
      (readTextLineLossy conv buf src).buf = buf ∧ (∀ s, encode s ≠ (readUntil src).1) ∨
      ∃ line, (readTextLineLossy conv buf src).buf = buf ++ line ∧ encode line = (readUntil src).1) := by
  unfold readTextLineLossy readLine
  simp only
  cases hf : fromUtf8 (readUntil src).1 with
  | none =>
    have hn : ∀ s, encode s ≠ (readUntil src).1 := by
      intro s hs
      rw [← hs, fromUtf8_encode] at hf
      cases hf
    cases hr : (readUntil src).2.1 with
    | false => simpa using Or.inl hn
    | true => simp
  | some s =>
    have hs := fromUtf8_some hf
    cases hr : (readUntil src).2.1 with
    | false => simp [hs]
    | true => simp

/-- So here too a failing source leaves unchecked text in the caller's `TextString`. -/
theorem c43_refuted_lossy_source_error (conv : List Char → List Char) :
    readTextLineLossy conv ['a'] [.data [27, 91], .err] = { ret := .ioError, buf := ['a', '\x1b', '['], src := [] } := by
  have h : readLine ['a'] [.data [27, 91], .err] = { ret := .ioError, buf := ['a', '\x1b', '['], src := [] } := by decide +kernel
  simp only [readTextLineLossy, h]

example : ∃ conv : List Char → List Char, (∀ v, LossyOf v (conv v)) ∧ (readTextLineLossy conv ['a', '\n'] [.data [98, 10]]).ret = .ok 2 := by
  refine ⟨fun v => (lossyOf_exists v).choose, fun v => (lossyOf_exists v).choose_spec, ?_⟩
  have h : readLine ['a', '\n'] [.data [98, 10]] = { ret := .ok 2, buf := ['a', '\n', 'b', '\n'], src := [] } := by decide +kernel
  simp only [readTextLineLossy, h]

end Verif
