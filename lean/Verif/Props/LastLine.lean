import Verif.Props.Lines

/-!
# Contents whose last line is not terminated (C41, C42)
-/

namespace Verif
open Ucd Spec

/-- What `text_lines` makes of the bytes after the last newline, if there are any.  Basic Text loses its last scalar, and is an error if what is left may not
end a text; with debug assertions the program stops. -/
def Spec.lastItem (debug : Bool) (l : Bytes) : Next :=
  match fromUtf8 l with
  | none => .err .notUtf8
  | some s =>
    if fromText (isBasicText ucd15) s = .ok s then
      if debug then .panic
      else if fromText (isBasicText ucd15) s.dropLast = .ok s.dropLast then .item s.dropLast else .err .notText
    else .err .notText

/-- The same for `text_lines_lossy`: the conversion of the rest loses its last scalar, whatever it is; with debug assertions only a newline may be lost. -/
def Spec.lastLossy (conv : List Char → List Char) (debug : Bool) (l : Bytes) : Next :=
  match fromUtf8 l with
  | none => .err .notUtf8
  | some s => if debug ∧ (conv s).getLast? ≠ some '\n' then .panic else .item (guardEnd (conv s).dropLast)

/-- The iterator stops at a panic; otherwise it is asked once more and is at the end. -/
def Spec.stopAfter : Next → List Next
  | .panic => [.panic]
  | i => [i, .done]

theorem dropLast_text {s : List Char} (h : isBasicText ucd15 s = true) :
    isBasicText ucd15 s.dropLast = true ↔ ∀ c ∈ s.dropLast.getLast?, isEnd c = true := by
  obtain ⟨h1, h2, h3⟩ := text_iff.1 h
  rw [text_iff]
  have hs : isBasicTextSubstr ucd15 s.dropLast = true := by
    rcases List.eq_nil_or_concat s with rfl | ⟨t, c, rfl⟩
    · exact h3
    · rw [List.concat_eq_append] at h3 ⊢
      simp only [List.dropLast_concat]
      exact substr_infix textLaws15 (p := []) (q := [c]) (by simpa using h3)
  have hh : ∀ c ∈ s.dropLast.head?, isStart ucd15 c = true := by
    intro c hc
    apply h1
    cases s with
    | nil => simp at hc
    | cons x s =>
      cases s with
      | nil => simp at hc
      | cons y s => simpa using hc
  exact ⟨fun h => h.2.1, fun h => ⟨hh, h, hs⟩⟩

theorem fromText_self {s : List Char} : fromText (isBasicText ucd15) s = .ok s ↔ isBasicText ucd15 s = true :=
  ⟨fun h => (fromText_ok_iff.1 h).1, fromText_ok⟩

theorem next_last (debug : Bool) {src : List BufEvent} {l : Bytes} (hne : l ≠ []) (hnl : 10 ∉ l) (h : readUntil src = (l, true, [])) :
    textLinesNext ucd15 debug src = (lastItem debug l, []) := by
  obtain ⟨k, hk⟩ : ∃ k, l.length = k + 1 := ⟨l.length - 1, by cases l <;> simp_all⟩
  unfold textLinesNext readTextLine readLine lastItem
  simp only [h]
  cases hu : fromUtf8 l with
  | none => simp
  | some s =>
    simp only [if_true, hk, List.nil_append, fromText_self]
    by_cases hv : isBasicText ucd15 s = true
    · simp only [hv, if_true]
      have hs : s.getLast? ≠ some '\n' := by
        intro hl
        obtain ⟨t, rfl⟩ := List.getLast?_eq_some_iff.1 hl
        have := (fromUtf8_some hu).symm
        rw [encode_append, encode_nl] at this
        exact hnl (by rw [← this]; simp)
      cases debug with
      | true =>
        have hp : popLine true s = none := by
          unfold popLine
          simp [hs]
        simp only [hp, if_true]
      | false =>
        have hp : popLine false s = some s.dropLast := by simp [popLine]
        simp only [hp]
        simp only [dropLast_text hv]
        cases hq : s.dropLast.getLast? with
        | none => simp
        | some c => simp
    · simp only [hv]; simp

theorem next_lossy_last (conv : List Char → List Char) (hc : ∀ v, LossyOf v (conv v)) (debug : Bool) {src : List BufEvent} {l : Bytes} (hne : l ≠ [])
    (h : readUntil src = (l, true, [])) : textLinesLossyNext conv debug src = (lastLossy conv debug l, []) := by
  obtain ⟨k, hk⟩ : ∃ k, l.length = k + 1 := ⟨l.length - 1, by cases l <;> simp_all⟩
  unfold textLinesLossyNext readTextLineLossy readLine lastLossy
  simp only [h]
  cases hu : fromUtf8 l with
  | none => simp
  | some s =>
    simp only [if_true, hk, List.nil_append]
    have hok := (hc s).valid
    generalize conv s = t at hok ⊢
    have hr : (t.dropLast.getLast? == some '\r') = false := by
      rw [beq_eq_false_iff_ne]
      intro hq
      have hm : '\r' ∈ t := List.dropLast_subset _ (List.mem_of_getLast? hq)
      exact absurd ((substr_iff.1 (text_substr hok)).1 _ hm) (by decide +kernel)
    by_cases hp : debug = true ∧ t.getLast? ≠ some '\n'
    · have : popLine debug t = none := by
        unfold popLine
        simp [hp.1, hp.2]
      simp only [this, if_pos hp]
    · have : popLine debug t = some t.dropLast := by
        unfold popLine
        rw [hr]
        cases debug <;> simp_all
      simp only [this, if_neg hp]
      unfold guardEnd
      cases t.dropLast.getLast? <;> rfl

theorem next_lossy_line (conv : List Char → List Char) (hc : ∀ v, LossyOf v (conv v)) (debug : Bool) {src src' : List BufEvent} {l : List Char}
    (h1 : readUntil src = (encode l ++ [10], true, src')) :
    textLinesLossyNext conv debug src = (.item (guardEnd (conv (l ++ ['\n'])).dropLast), src') := by
  have hv := hc (l ++ ['\n'])
  have hn := hv.nl
  have hok := hv.valid
  generalize hcv : conv (l ++ ['\n']) = t at hn hok ⊢
  have hne : (encode l ++ [10] : Bytes).length = (encode l).length + 1 := by simp
  have hp : popLine debug t = some t.dropLast := by
    unfold popLine
    have : (t.dropLast.getLast? == some '\r') = false := by
      rw [beq_eq_false_iff_ne]
      intro hq
      have hm : '\r' ∈ t := List.dropLast_subset _ (List.mem_of_getLast? hq)
      exact absurd ((substr_iff.1 (text_substr hok)).1 _ hm) (by decide +kernel)
    simp [this, hn]
  unfold textLinesLossyNext readTextLineLossy readLine
  simp only [h1, fromUtf8_nl, fromUtf8_encode, Option.map_some, if_true, List.nil_append, hne, hcv, hp]
  unfold guardEnd
  cases hq : t.dropLast.getLast? <;> rfl

theorem iterate_stop {next : List BufEvent → Next × List BufEvent} {n : Nat} {src : List BufEvent} {x : Next} (h : next src = (x, [])) (hx : x ≠ .done)
    (hd : next [] = (.done, [])) : iterate next (n + 2) src = stopAfter x := by
  rw [iterate]
  simp only [h]
  cases x with
  | done => exact absurd rfl hx
  | panic => rfl
  | item t => simp [stopAfter, iterate, hd]
  | err e => simp [stopAfter, iterate, hd]

/-- C41, exactly, for every content: the terminated lines are judged as before; what comes after the last newline, if anything does, is handled by
`Spec.lastItem`. -/
theorem c41_any_content (debug : Bool) (lines : List Bytes) (last : Bytes) (hl : ∀ l ∈ lines, 10 ∉ l) (hlast : 10 ∉ last) (hne : last ≠ [])
    (src : List BufEvent) (hs : Steady src) (hb : bytesOf src = lines.flatMap (· ++ [10]) ++ last) (n : Nat) (hn : lines.length + 1 < n) :
    iterate (textLinesNext ucd15 debug) n src = lines.map lineItem ++ stopAfter (lastItem debug last) := by
  induction lines generalizing src n with
  | nil =>
    obtain ⟨n, rfl⟩ : ∃ m, n = m + 2 := ⟨n - 2, by simp at hn; omega⟩
    simp only [List.flatMap_nil, List.nil_append] at hb
    have h := readUntil_rest src hs (by rw [hb]; exact hlast)
    rw [hb] at h
    refine iterate_stop (next_last debug hne hlast h) ?_ (by cases debug <;> decide +kernel)
    unfold lastItem
    grind
  | cons l lines ih =>
    obtain ⟨n, rfl⟩ : ∃ m, n = m + 1 := ⟨n - 1, by simp at hn; omega⟩
    have hb' : bytesOf src = l ++ 10 :: (lines.flatMap (· ++ [10]) ++ last) := by rw [hb]; simp
    obtain ⟨src', h1, h2, h3⟩ := readUntil_line src _ _ hs hb' (hl l (by simp))
    have hx := textLinesNext_line debug h1
    have hi := ih (fun x hx => hl x (by simp [hx])) src' h2 h3 n (by simp at hn; omega)
    have hit : (∃ t, lineItem l = .item t) ∨ ∃ e, lineItem l = .err e := by
      unfold lineItem
      split
      · exact Or.inr ⟨_, rfl⟩
      · split
        · exact Or.inl ⟨_, rfl⟩
        · exact Or.inr ⟨_, rfl⟩
    rw [iterate]
    simp only [hx]
    rcases hit with ⟨t, ht⟩ | ⟨e, he⟩
    · simp [ht, hi]
    · simp [he, hi]

/-- C42, exactly, for every content: as for terminated lines, and then `Spec.lastLossy`. -/
theorem c42_any_content (conv : List Char → List Char) (hc : ∀ v, LossyOf v (conv v)) (debug : Bool) (lines : List (List Char)) (last : Bytes)
    (hl : ∀ l ∈ lines, 10 ∉ encode l) (hlast : 10 ∉ last) (hne : last ≠ []) (src : List BufEvent) (hs : Steady src)
    (hb : bytesOf src = lines.flatMap (encode · ++ [10]) ++ last) (n : Nat) (hn : lines.length + 1 < n) :
    iterate (textLinesLossyNext conv debug) n src =
      lines.map (fun l => .item (guardEnd (conv (l ++ ['\n'])).dropLast)) ++ stopAfter (lastLossy conv debug last) := by
  induction lines generalizing src n with
  | nil =>
    obtain ⟨n, rfl⟩ : ∃ m, n = m + 2 := ⟨n - 2, by simp at hn; omega⟩
    simp only [List.flatMap_nil, List.nil_append] at hb
    have h := readUntil_rest src hs (by rw [hb]; exact hlast)
    rw [hb] at h
    refine iterate_stop (next_lossy_last conv hc debug hne h) ?_ ?_
    · unfold lastLossy
      grind
    · have e0 : fromUtf8 [] = some [] := rfl
      have e1 : readUntil [] = ([], true, []) := rfl
      unfold textLinesLossyNext readTextLineLossy readLine
      simp [e0, e1]
  | cons l lines ih =>
    obtain ⟨n, rfl⟩ : ∃ m, n = m + 1 := ⟨n - 1, by simp at hn; omega⟩
    have hb' : bytesOf src = encode l ++ 10 :: (lines.flatMap (encode · ++ [10]) ++ last) := by rw [hb]; simp
    obtain ⟨src', h1, h2, h3⟩ := readUntil_line src _ _ hs hb' (hl l (by simp))
    have hi := ih (fun x hx => hl x (by simp [hx])) src' h2 h3 n (by simp at hn; omega)
    have hx := next_lossy_line conv hc debug h1
    rw [iterate]
    simp [hx, hi]

example : Steady [.data [97, 10, 98], .data [99]] ∧ bytesOf [.data [97, 10, 98], .data [99]] = [[97]].flatMap (· ++ [10]) ++ [98, 99] ∧
    lastItem false [98, 99] = .item ['b'] ∧ lastItem true [98, 99] = .panic ∧ lastItem false (encode ['b', '‍', 'c']) = .err .notText := by
  refine ⟨by simp [Steady], by decide +kernel, by decide +kernel, by decide +kernel, by decide +kernel⟩

end Verif
