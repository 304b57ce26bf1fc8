import Verif.Early
import Verif.Props.Pieces
import Verif.Props.Reader

/-!
# C136: a source that ends early
-/

namespace Verif
open Ucd Spec

/-- C136: a source breaks off at any scalar, inside a read or between two: what is delivered is the lines that the whole source gives, and at
most one further line. -/
theorem c136_broken_off (nel lsps : Bool) (evs : List Event) (hev : ∀ e ∈ evs, ∃ s st, e = .data s st ∧ st ≠ .end_) (p q : List Char) (st : Status)
    (more : List Event) (hm : Ending (.data (p ++ q) st :: more)) (lens lens' : List Nat)
    (h : Completes ucd15 nel lsps (evs ++ [.data p .end_]) lens) (h' : Completes ucd15 nel lsps (evs ++ .data (p ++ q) st :: more) lens') :
    ∃ c t t', output ucd15 nel lsps (evs ++ [.data p .end_]) lens = c ++ t ∧ output ucd15 nel lsps (evs ++ .data (p ++ q) st :: more) lens' = c ++ t' ∧
      '\n' ∉ t.dropLast ∧ (c = [] ∨ c.getLast? = some '\n') := by
  obtain ⟨r, n, hr, hok⟩ := h
  obtain ⟨r', n', hr', hok'⟩ := h'
  have hend' : Ending (evs ++ .data (p ++ q) st :: more) := by
    obtain ⟨es, l, he, hes⟩ := hm
    refine ⟨evs ++ es, l, by rw [he, List.append_assoc], fun e he => ?_⟩
    rcases List.mem_append.1 he with he | he
    · exact hev e he
    · exact hes e he
  obtain ⟨z, hz⟩ := processRaw_more (U := ucd15) (absorbAll ucd15 ((TextInput.new nel lsps).ctl, []) evs).1 p q
  obtain ⟨c, t, t', h1, h2, h3⟩ := early_core textLaws15 nel lsps evs p (p ++ q) st more hev
    (absorb_drop _ p .end_) (by simp only [reduceCtorEq, if_false]; exact finish_end _ _)
    (by rw [absorb_drop, hz, List.append_assoc])
  rw [output, output, (run_exact textLaws15 ⟨evs, p, rfl, hev⟩ hr hok).1, (run_exact textLaws15 hend' hr' hok').1]
  exact early_lines h1 h2 h3

/-- C136 for bytes: a source of bytes breaks off after any byte, in the middle of a scalar too. -/
theorem c136_bytes (nel lsps : Bool) (bs : List Bytes) (b x : Bytes) (lens lens' : List Nat)
    (h : Completes ucd15 nel lsps (byteScript bs b) lens) (h' : Completes ucd15 nel lsps (byteScript bs (b ++ x)) lens') :
    ∃ c t t', output ucd15 nel lsps (byteScript bs b) lens = c ++ t ∧ output ucd15 nel lsps (byteScript bs (b ++ x)) lens' = c ++ t' ∧
      '\n' ∉ t.dropLast ∧ (c = [] ∨ c.getLast? = some '\n') := by
  obtain ⟨r, n, hr, hok⟩ := h
  obtain ⟨r', n', hr', hok'⟩ := h'
  have hreads : ∀ (bs : List Bytes) (κ : Bytes), ∃ κ' ch, ∀ last, decodeReads κ bs last = (ch, utf8Lossy (κ' ++ last)) := by
    intro bs
    induction bs with
    | nil => exact fun κ => ⟨κ, [], fun last => rfl⟩
    | cons b0 bs ih =>
      intro κ
      obtain ⟨κ', ch, hk⟩ := ih (feedBytes (κ ++ b0)).2
      exact ⟨κ', (feedBytes (κ ++ b0)).1 :: ch, fun last => by rw [decodeReads, hk]⟩
  obtain ⟨κ, ch, hk⟩ := hreads bs []
  have e1 : byteScript bs b = ch.map (.data · .active) ++ [.data (utf8Lossy (κ ++ b)) .end_] := by rw [byteScript, hk]; rfl
  have e2 : byteScript bs (b ++ x) = ch.map (.data · .active) ++ [.data (utf8Lossy (κ ++ (b ++ x))) .end_] := by rw [byteScript, hk]; rfl
  have hev : ∀ e ∈ ch.map (Event.data · .active), ∃ s st, e = .data s st ∧ st ≠ .end_ := by
    intro e he
    obtain ⟨s, -, rfl⟩ := List.mem_map.1 he
    exact ⟨s, .active, rfl, by simp⟩
  rw [e1] at hr
  rw [e2] at hr'
  rw [output, output, e1, e2, (run_exact textLaws15 ⟨_, _, rfl, hev⟩ hr hok).1, (run_exact textLaws15 ⟨_, _, rfl, hev⟩ hr' hok').1]
  have ha := feedBytes_append (κ ++ b) []
  have hb := feedBytes_append (κ ++ b) x
  rw [List.append_nil] at ha
  rw [← List.append_assoc, ha, hb, List.append_nil]
  generalize (feedBytes (κ ++ b)).1 = u
  rcases feedBytesGo_rest _ (κ ++ b) (Nat.le_refl _) with hn | ⟨hi, hd⟩
  · rw [show (feedBytes (κ ++ b)).2 = [] from hn, utf8Lossy_nil, List.append_nil]
    obtain ⟨z, hz⟩ := processRaw_more (U := ucd15) (absorbAll ucd15 ((TextInput.new nel lsps).ctl, []) (ch.map (Event.data · .active))).1 u (utf8Lossy ([] ++ x))
    obtain ⟨c, t, t', h1, h2, h3⟩ := early_core textLaws15 nel lsps (ch.map (Event.data · .active)) u (u ++ utf8Lossy ([] ++ x)) .end_ [] hev
      (absorb_drop _ u .end_) (by simp only [reduceCtorEq, if_false]; exact finish_end _ _)
      (by rw [absorb_drop, hz, List.append_assoc])
    exact early_lines h1 h2 h3
  · have hl := incomplete_lossy hi hd
    obtain ⟨c, w, hw, hc⟩ := lossy_first (x := x) hi
    rw [show utf8Lossy (feedBytes (κ ++ b)).2 = ['�'] from hl, show utf8Lossy ((feedBytes (κ ++ b)).2 ++ x) = c :: w from hw]
    obtain ⟨oc, d, z, f1, f2, f3⟩ := early_mark (U := ucd15) (absorbAll ucd15 ((TextInput.new nel lsps).ctl, []) (ch.map (Event.data · .active))).1 u c w hc
      (start_state nel lsps _)
    obtain ⟨c', t, t', h1, h2, h3⟩ := early_core textLaws15 nel lsps (ch.map (Event.data · .active)) (u ++ ['�']) (u ++ c :: w) .end_ [] hev
      (oc := oc) (f := d ++ (finish (processRaw ucd15 (absorbAll ucd15 ((TextInput.new nel lsps).ctl, []) (ch.map (Event.data · .active))).1 (u ++ ['�'])).1
          ((absorbAll ucd15 ((TextInput.new nel lsps).ctl, []) (ch.map (Event.data · .active))).2 ++ (oc ++ d)).getLast? .end_).2)
      (by rw [absorb_drop, f1, List.append_assoc, if_neg (by simp)]) (by
        have hfe := finish_end (processRaw ucd15 (absorbAll ucd15 ((TextInput.new nel lsps).ctl, []) (ch.map (Event.data · .active))).1 (u ++ ['�'])).1
          ((absorbAll ucd15 ((TextInput.new nel lsps).ctl, []) (ch.map (Event.data · .active))).2 ++ (oc ++ d)).getLast?
        revert hfe
        generalize (finish (processRaw ucd15 (absorbAll ucd15 ((TextInput.new nel lsps).ctl, []) (ch.map (Event.data · .active))).1 (u ++ ['�'])).1
          ((absorbAll ucd15 ((TextInput.new nel lsps).ctl, []) (ch.map (Event.data · .active))).2 ++ (oc ++ d)).getLast? .end_).2 = f
        intro hfe
        cases f with
        | nil => rw [List.append_nil]; exact fun h => f2 (List.dropLast_subset _ h)
        | cons a f =>
          rw [List.dropLast_append_of_ne_nil (by simp)]
          simp only [List.mem_append, not_or]
          exact ⟨f2, hfe⟩)
      (by rw [absorb_drop, f3, List.append_assoc])
    exact early_lines h1 h2 h3

/-- C136: so two sources that begin alike deliver alike all but the last line of what they have in common. -/
theorem c136_shared (nel lsps : Bool) (evs : List Event) (hev : ∀ e ∈ evs, ∃ s st, e = .data s st ∧ st ≠ .end_) (p q q' : List Char) (st st' : Status)
    (more more' : List Event) (hm : Ending (.data (p ++ q) st :: more)) (hm' : Ending (.data (p ++ q') st' :: more')) (lens lens1 lens2 : List Nat)
    (h : Completes ucd15 nel lsps (evs ++ [.data p .end_]) lens) (h1 : Completes ucd15 nel lsps (evs ++ .data (p ++ q) st :: more) lens1)
    (h2 : Completes ucd15 nel lsps (evs ++ .data (p ++ q') st' :: more') lens2) :
    ∃ c t t1 t2, output ucd15 nel lsps (evs ++ [.data p .end_]) lens = c ++ t ∧ output ucd15 nel lsps (evs ++ .data (p ++ q) st :: more) lens1 = c ++ t1 ∧
      output ucd15 nel lsps (evs ++ .data (p ++ q') st' :: more') lens2 = c ++ t2 ∧ '\n' ∉ t.dropLast ∧ (c = [] ∨ c.getLast? = some '\n') := by
  obtain ⟨c, t, t1, a1, a2, a3, a4⟩ := c136_broken_off nel lsps evs hev p q st more hm lens lens1 h h1
  obtain ⟨d, u, t2, b1, b2, b3, b4⟩ := c136_broken_off nel lsps evs hev p q' st' more' hm' lens lens2 h h2
  have same : c ++ t = d ++ u := by rw [← a1, ← b1]
  rcases List.append_eq_append_iff.1 same with ⟨v, e1, e2⟩ | ⟨v, e1, e2⟩
  · exact ⟨c, t, t1, v ++ t2, a1, a2, by rw [b2, e1, List.append_assoc], a3, a4⟩
  · exact ⟨d, u, v ++ t1, t2, b1, by rw [a2, e1, List.append_assoc], b2, b3, b4⟩

/-- The last line itself may come out differently: a letter whose accent is missing, half of an escape sequence, half of a CR LF. -/
theorem c136_last_differs :
    output ucd15 false false [.data ['a', '\n', 'e'] .end_] [136] = ['a', '\n', 'e', '\n'] ∧
    output ucd15 false false [.data (['a', '\n', 'e'] ++ ['́', 'b']) .end_] [136] = ['a', '\n', 'é', 'b', '\n'] ∧
    output ucd15 false false [.data ['a', '\n', ESC, ']', 'b', '\n', 'c'] .end_] [136] = ['a', '\n', '\n'] ∧
    output ucd15 false false [.data (['a', '\n', ESC, ']', 'b', '\n', 'c'] ++ [BEL, 'd']) .end_] [136] = ['a', '\n', 'd', '\n'] := by
  decide +kernel

/-- A source of two reads that breaks off in the second, and one of bytes that breaks off inside `é` behind CR. -/
example : Completes ucd15 false false ([.data ['a'] .active] ++ [.data ['\n', 'b'] .end_]) [136, 136] ∧
    Completes ucd15 false false ([.data ['a'] .active] ++ .data (['\n', 'b'] ++ ['c']) .active :: [.data ['d'] .end_]) [136, 136, 136] ∧
    Completes ucd15 false false (byteScript [] [0x61, 0x0d, 0xc3]) [136] ∧ output ucd15 false false (byteScript [] [0x61, 0x0d, 0xc3]) [136] = ['a', '\n', '�', '\n'] ∧
    Completes ucd15 false false (byteScript [] ([0x61, 0x0d, 0xc3] ++ [0xa9, 0x62])) [136] ∧
    output ucd15 false false (byteScript [] ([0x61, 0x0d, 0xc3] ++ [0xa9, 0x62])) [136] = ['a', '\n', 'é', 'b', '\n'] :=
  ⟨completes_of (by decide +kernel), completes_of (by decide +kernel), completes_of (by decide +kernel), by decide +kernel, completes_of (by decide +kernel), by decide +kernel⟩

end Verif
