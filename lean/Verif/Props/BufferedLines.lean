import Verif.BufferedLines
import Verif.Props.Lines
import Verif.Props.Cat
import Verif.Props.TextFile

/-!
# Lines from a reader behind a buffer (C150)

`fills ucd15 cap k (.new nel lsps) src` is what a `BufReader` with this capacity around a new reader gives, the first `k` times that it is
filled, to the methods of `BufRead` and `BufReadText`.
-/

namespace Verif
open Ucd Spec

theorem encode_lines (ls : List (List Char)) : encode (ls.flatMap (· ++ ['\n'])) = ls.flatMap fun l => encode l ++ [10] := by
  induction ls with
  | nil => rfl
  | cons l ls ih => simp only [List.flatMap_cons, encode_append, ih, encode_nl]

/-- `std::io::Lines` yields the terminated lines of a content that is UTF-8 without carriage returns. -/
theorem std_lines (ls : List (List Char)) (hl : ∀ l ∈ ls, 10 ∉ encode l ∧ '\r' ∉ l) : ∀ (src : List BufEvent), Steady src →
    bytesOf src = (ls.flatMap fun l => encode l ++ [10]) → ∀ n, ls.length < n → iterate stdLinesNext n src = ls.map .item ++ [.done] := by
  induction ls with
  | nil =>
    intro src hs hb n hn
    obtain ⟨n, rfl⟩ : ∃ m, n = m + 1 := ⟨n - 1, by simp at hn; omega⟩
    have h := next_end src hs (by simpa using hb)
    have e0 : fromUtf8 [] = some [] := rfl
    have : stdLinesNext src = (.done, []) := by
      unfold stdLinesNext readLine
      simp [h, e0]
    simp [iterate, this]
  | cons l ls ih =>
    intro src hs hb n hn
    obtain ⟨n, rfl⟩ : ∃ m, n = m + 1 := ⟨n - 1, by simp at hn; omega⟩
    have hb' : bytesOf src = encode l ++ 10 :: ls.flatMap fun l => encode l ++ [10] := by rw [hb]; simp
    obtain ⟨src', h1, h2, h3⟩ := readUntil_line src _ _ hs hb' (hl l (by simp)).1
    have hi := ih (fun x hx => hl x (by simp [hx])) src' h2 h3 n (by simp at hn; omega)
    have hu : fromUtf8 (encode l ++ [10]) = some (l ++ ['\n']) := by
      rw [fromUtf8_iff, encode_append]; rfl
    have hx : stdLinesNext src = (.item l, src') := by
      unfold stdLinesNext readLine
      have hc : chomp (l ++ ['\n']) = l := by
        have : l.getLast? ≠ some '\r' := fun hc => (hl l (by simp)).2 (List.mem_of_getLast? hc)
        simp [chomp, this]
      simp [h1, hu, hc]
    rw [iterate]
    simp [hx, hi]

/-- The fills of the buffer: up to the end the events are steady, have the bytes of the whole output, and after that the end is reported for ever. -/
theorem fills_whole (cap : Nat) (hc : 136 ≤ cap) (nel lsps : Bool) (src : List Event) (hsrc : Ending src) (lens : List Nat)
    (hl : Completes ucd15 nel lsps src lens) :
    ∃ j, (∀ m, fills ucd15 cap (j + m) (.new nel lsps) src = fills ucd15 cap j (.new nel lsps) src ++ List.replicate m (.data [])) ∧
      Steady (fills ucd15 cap j (.new nel lsps) src) ∧ bytesOf (fills ucd15 cap j (.new nel lsps) src) = encode (output ucd15 nel lsps src lens) := by
  have hcap : normalizationBufferSize ≤ cap := hc
  obtain ⟨k, r, hr, t, ht⟩ := constant_reach nel lsps src cap hcap
  have hnext := read_after_end textLaws15 hsrc hr ht hcap
  have hrun : readMany ucd15 (List.replicate (k + 1) cap) (.new nel lsps) src =
      readMany ucd15 (List.replicate k cap) (.new nel lsps) src ++ [readWithStatus ucd15 cap r.input r.src] := by
    rw [List.replicate_succ', readMany_append, show finalState _ _ _ = (r.input, r.src) by simp [finalState, hr]]; rfl
  obtain ⟨j, h1, q, h2, h3⟩ := first_end (U := ucd15) cap (k + 1) (.new nel lsps) src ⟨_, by rw [hrun]; simp, hnext⟩
  have hcount := readMany_count (U := ucd15) (lens := List.replicate (j + 1) cap) (t := .new nel lsps) (src := src) (r := q) (by rw [h2]; simp) h3
  have hqnil : encode q.out = [] := List.length_eq_zero_iff.1 hcount.symm
  have hqout : q.out = [] := encode_injective (by rw [hqnil]; rfl)
  have hq : fillEvent q = .data [] := by simp [fillEvent, h3, stdRet, hqnil]
  have htame : Tame false src := fun e he => ⟨hsrc.no_err e he, by simp⟩
  obtain ⟨-, -, -, -, hnp⟩ := run_rel textLaws15 (List.replicate j cap) (.new nel lsps) src [] [] (Rel.init nel lsps)
  have hok := readMany_tame (U := ucd15) hcap j (.new nel lsps) src htame (by simp) hnp
  obtain ⟨s1, s2⟩ := fills_steady (fun r hr => by obtain ⟨st, h, -⟩ := hok r hr; exact ⟨st, h⟩) h1
  refine ⟨j, ?_, s1, ?_⟩
  · suffices H : ∀ m, fills ucd15 cap (j + m) (.new nel lsps) src = fills ucd15 cap j (.new nel lsps) src ++ List.replicate m (.data []) ∧
        ∃ r, (readMany ucd15 (List.replicate (j + m + 1) cap) (.new nel lsps) src) = readMany ucd15 (List.replicate (j + m) cap) (.new nel lsps) src ++ [r] ∧
          r.ret = .ok 0 .end_ ∧ fillEvent r = .data [] from fun m => (H m).1
    intro m
    induction m with
    | zero => exact ⟨by simp, q, h2, h3, hq⟩
    | succ m ih =>
      obtain ⟨i1, r, i2, i3, i4⟩ := ih
      refine ⟨?_, ?_⟩
      · rw [fills, show j + (m + 1) = j + m + 1 by omega, i2, List.map_append, ← fills, i1, List.replicate_succ', List.append_assoc]
        simp [i4]
      · have hlast : (readMany ucd15 (List.replicate (j + m + 1) cap) (.new nel lsps) src).getLast? = some r := by rw [i2]; simp
        have hn := read_after_end textLaws15 hsrc hlast i3 hcap
        have hcn := List.length_eq_zero_iff.1 (ret_count hn).symm
        refine ⟨readWithStatus ucd15 cap r.input r.src, ?_, hn, by simp [fillEvent, hn, stdRet, hcn]⟩
        rw [show j + (m + 1) = j + m + 1 by omega, List.replicate_succ' (n := j + m + 1), readMany_append,
          show finalState _ _ _ = (r.input, r.src) by simp [finalState, hlast]]; rfl
  · have hcomp : Completes ucd15 nel lsps src (List.replicate (j + 1) cap) := ⟨q, 0, by rw [h2]; simp, h3⟩
    rw [fills, s2, ← c16_buffer_independent nel lsps src hsrc _ _ hcomp hl, output, h2]
    simp [delivered, hqout]

/-- C150: on a source that ends without failing, read through a buffer of at least 136 bytes, both `lines` of the standard library and
`text_lines` give one item for each line of the text which the reader delivers, in order, and then none: `lines` always gives the line, and
`text_lines` gives it if it is Basic Text by itself and otherwise an error.  Neither depends on the capacity or on how the source is cut up. -/
theorem c150_lines (cap : Nat) (hc : 136 ≤ cap) (nel lsps : Bool) (src : List Event) (hsrc : Ending src) (lens : List Nat)
    (hl : Completes ucd15 nel lsps src lens) :
    ∃ (j : Nat) (ls : List (List Char)),
      (∀ m, fills ucd15 cap (j + m) (.new nel lsps) src = fills ucd15 cap j (.new nel lsps) src ++ List.replicate m (.data [])) ∧
      output ucd15 nel lsps src lens = ls.flatMap (· ++ ['\n']) ∧
      (∀ l ∈ ls, '\n' ∉ l ∧ fromText (isBasicTextSubstr ucd15) l = .ok l) ∧
      ∀ n, ls.length < n →
        iterate stdLinesNext n (fills ucd15 cap j (.new nel lsps) src) = ls.map .item ++ [.done] ∧
        ∀ debug, iterate (textLinesNext ucd15 debug) n (fills ucd15 cap j (.new nel lsps) src) =
          ls.map (fun l => if fromText (isBasicText ucd15) l = .ok l then .item l else .err .notText) ++ [.done] := by
  obtain ⟨j, h1, h2, h3⟩ := fills_whole cap hc nel lsps src hsrc lens hl
  obtain ⟨r, k, hr, hk⟩ := hl
  obtain ⟨ls, g1, -, g2⟩ := (c122_read nel lsps src lens).2 r k hr hk
  rw [← run_delivered textLaws15 nel lsps hsrc.no_err] at g2
  have h10 : ∀ l ∈ ls, 10 ∉ encode l := fun l hm h => (g1 l hm).1 (by simpa using encode_low_mem h (by decide))
  have hcr : ∀ l ∈ ls, '\r' ∉ l := fun l hm h => (ok_not_special ((substr_iff.1 (g1 l hm).2).1 _ h)).1 rfl
  have hbytes := h3.trans g2
  refine ⟨j, ls, h1, ?_, fun l hm => ⟨(g1 l hm).1, fromText_ok (g1 l hm).2⟩, fun n hn => ⟨?_, fun debug => ?_⟩⟩
  · apply encode_injective
    rw [output, g2, encode_lines]
  · exact std_lines ls (fun l hm => ⟨h10 l hm, hcr l hm⟩) _ h2 hbytes n hn
  · rw [c41_text_lines debug (ls.map encode) (by simpa using h10) _ h2 (by rw [hbytes, List.flatMap_map]) n (by simpa using hn), List.map_map]
    congr 1
    apply List.map_congr_left
    intro l hm
    simp only [Function.comp, lineItem, fromUtf8_encode]

/-- C150: `text_lines_lossy` gives one item for each line too, never an error, and each is Basic Text. -/
theorem c150_lossy (conv : List Char → List Char) (hv : ∀ v, LossyOf v (conv v)) (cap : Nat) (hc : 136 ≤ cap) (nel lsps : Bool) (src : List Event)
    (hsrc : Ending src) (lens : List Nat) (hl : Completes ucd15 nel lsps src lens) :
    ∃ (j : Nat) (ls : List (List Char)),
      (∀ m, fills ucd15 cap (j + m) (.new nel lsps) src = fills ucd15 cap j (.new nel lsps) src ++ List.replicate m (.data [])) ∧
      output ucd15 nel lsps src lens = ls.flatMap (· ++ ['\n']) ∧ (∀ l ∈ ls, '\n' ∉ l) ∧
      ∀ n, ls.length < n → ∀ debug, ∃ ts : List (List Char), ts.length = ls.length ∧
        iterate (textLinesLossyNext conv debug) n (fills ucd15 cap j (.new nel lsps) src) = ts.map .item ++ [.done] ∧
        (∀ t ∈ ts, fromText (isBasicText ucd15) t = .ok t) ∧
        ts = ls.map fun l => guardEnd (conv (l ++ ['\n'])).dropLast := by
  obtain ⟨j, h1, h2, h3⟩ := fills_whole cap hc nel lsps src hsrc lens hl
  obtain ⟨-, ls, -, g1, g2, -⟩ := c150_lines cap hc nel lsps src hsrc lens hl
  have h10 : ∀ l ∈ ls, 10 ∉ encode l := fun l hm h => (g2 l hm).1 (by simpa using encode_low_mem h (by decide))
  refine ⟨j, ls, h1, g1, fun l hm => (g2 l hm).1, fun n hn debug => ⟨_, ?_, ?_, ?_, rfl⟩⟩
  · simp
  · rw [c42_lossy_lines conv hv debug ls h10 _ h2 (by rw [h3, g1, encode_lines]) n hn, List.map_map]; rfl
  · intro t ht
    obtain ⟨l, -, rfl⟩ := List.mem_map.1 ht
    exact fromText_ok (guarded_pop (hv _).valid)

/-- C150: with a smaller buffer every fill fails, and so does every line, for ever. -/
theorem c150_small (cap : Nat) (hc : cap < 136) (nel lsps : Bool) (src : List Event) (k : Nat) :
    fills ucd15 cap k (.new nel lsps) src = List.replicate k .err ∧
    iterate stdLinesNext k (fills ucd15 cap k (.new nel lsps) src) = List.replicate k (.err .ioError) ∧
    ∀ debug, iterate (textLinesNext ucd15 debug) k (fills ucd15 cap k (.new nel lsps) src) = List.replicate k (.err .ioError) := by
  have h : ∀ (k : Nat) (t : TextInput), fills ucd15 cap k t src = List.replicate k .err := by
    intro k
    induction k with
    | zero => intro t; rfl
    | succ k ih =>
      intro t
      have : readWithStatus ucd15 cap t src = { ret := .invalidInput, out := [], input := t, src := src } := by
        rw [readWithStatus, if_pos (show cap < normalizationBufferSize from hc)]
      have ih := ih t
      unfold fills at ih ⊢
      rw [List.replicate_succ, readMany, List.map_cons, this, ih, List.replicate_succ]
      rfl
  have e0 : fromUtf8 [] = some [] := rfl
  rw [h]
  refine ⟨rfl, ?_, fun debug => ?_⟩ <;> clear h
  · induction k with
    | zero => rfl
    | succ k ih =>
      rw [List.replicate_succ, iterate]
      have : stdLinesNext (.err :: List.replicate k .err) = (.err .ioError, List.replicate k .err) := by
        simp [stdLinesNext, readLine, readUntil, e0]
      simp [this, ih, List.replicate_succ]
  · induction k with
    | zero => rfl
    | succ k ih =>
      rw [List.replicate_succ, iterate]
      have : textLinesNext ucd15 debug (.err :: List.replicate k .err) = (.err .ioError, List.replicate k .err) := by
        simp [textLinesNext, readTextLine, readLine, readUntil, e0]
      simp [this, ih, List.replicate_succ]

/-- C150 for `text_lines` cannot be had without the error: what a reader delivers may have lines that are not Basic Text by themselves,
since one may begin with a mark or end with a joiner. -/
theorem c150_refuted_text_lines :
    iterate (textLinesNext ucd15 true) 5 (fills ucd15 136 3 (.new false false) (script [['a', '\n', '́', '\r']] ['\n', 'b', '‍', '\n'])) =
      [.item ['a'], .err .notText, .err .notText, .done] ∧
    iterate stdLinesNext 5 (fills ucd15 136 3 (.new false false) (script [['a', '\n', '́', '\r']] ['\n', 'b', '‍', '\n'])) =
      [.item ['a'], .item ['́'], .item ['b', '‍'], .done] := by
  decide +kernel

/-- A case of `c150_lines`: the source pauses within a line break, and the buffer reports an interruption in the midst. -/
example : fills ucd15 136 4 (.new false false) (script [['a', '\r']] ['\n', 'e', '́']) =
      [.interrupted, .data (encode ['a', '\n', 'é', '\n']), .data [], .data []] ∧
    Ending (script [['a', '\r']] ['\n', 'e', '́']) ∧ Completes ucd15 false false (script [['a', '\r']] ['\n', 'e', '́']) [136, 136] :=
  ⟨by decide +kernel, ending_script _ _, completes_of (by decide +kernel)⟩

end Verif
