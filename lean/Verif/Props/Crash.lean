import Verif.Crash
import Verif.Props.Disk

/-!
# A file that is appended to after crashes (C144)
-/

namespace Verif
open Ucd Spec

/-- The bytes of sessions one behind the other; of each text only the first bytes have got there. -/
def crashed (ss : List (List Char × Nat)) : Bytes := ss.flatMap fun p => (encode p.1).take p.2

/-- What is left of them. -/
def salvage (ss : List (List Char × Nat)) : List Char := ss.flatMap fun p => leftOf p.1 p.2

theorem crashed_head (ss : List (List Char × Nat)) : ∀ b ∈ (crashed ss).head?, isBoundaryByte b = true := by
  induction ss with
  | nil => simp [crashed]
  | cons p ss ih =>
    obtain ⟨T, n⟩ := p
    intro b hb
    rw [crashed, List.flatMap_cons] at hb
    cases n with
    | zero => exact ih b (by simpa [crashed] using hb)
    | succ n =>
      cases T with
      | nil => exact ih b (by simpa [crashed, encode] using hb)
      | cons c T =>
        obtain ⟨a, r, e1, e2, -⟩ := encodeChar_head c
        simp only [encode_cons, e1, List.cons_append, List.take_succ_cons, List.head?_cons, Option.mem_some_iff] at hb
        rw [← hb]; exact e2

theorem lossy_crashed (ss : List (List Char × Nat)) : utf8Lossy (crashed ss) = salvage ss := by
  induction ss with
  | nil => rfl
  | cons p ss ih =>
    obtain ⟨T, n⟩ := p
    show utf8Lossy ((encode T).take n ++ crashed ss) = leftOf T n ++ salvage ss
    rw [lossy_left T n (crashed_head ss), ih]

theorem leftOf_parts (T : List Char) : ∀ n, ∃ u t f, T = u ++ t ∧ leftOf T n = u ++ f ∧ (f = [] ∨ f = ['�']) := by
  induction T with
  | nil => intro n; exact ⟨[], [], [], rfl, rfl, .inl rfl⟩
  | cons c T ih =>
    intro n
    simp only [leftOf]
    split
    · obtain ⟨u, t, f, h1, h2, h3⟩ := ih (n - utf8Len c)
      exact ⟨c :: u, t, f, by rw [h1]; rfl, by rw [h2]; rfl, h3⟩
    · split
      · exact ⟨[], c :: T, [], rfl, rfl, .inl rfl⟩
      · exact ⟨[], c :: T, ['�'], rfl, rfl, .inr rfl⟩

/-- What is left of Basic Text is nearly Basic Text. -/
theorem leftOf_text {T : List Char} (hv : isBasicText ucd15 T = true) (ha : ∀ c ∈ T, isAssigned ucd15 c = true) (n : Nat) :
    (∀ c ∈ (leftOf T n).head?, isStart ucd15 c = true ∧ (c ∈ T.head? ∨ c = '�')) ∧ isBasicTextSubstr ucd15 (leftOf T n) = true ∧
      ∀ c ∈ leftOf T n, isAssigned ucd15 c = true := by
  obtain ⟨u, t, f, rfl, h2, h3⟩ := leftOf_parts T n
  obtain ⟨b1, b2⟩ := beginning_text hv
  have hr : isBasicTextSubstr ucd15 ['�'] = true := by decide +kernel
  have hs : isStart ucd15 '�' = true := by decide +kernel
  rw [h2]
  refine ⟨?_, ?_, ?_⟩
  · intro c hc
    cases u with
    | nil => rcases h3 with rfl | rfl
             · simp at hc
             · simp at hc; subst hc; exact ⟨hs, .inr rfl⟩
    | cons a u => exact ⟨b1 c hc, .inl hc⟩
  · rcases h3 with rfl | rfl
    · simpa using b2
    · exact substr_append textLaws15 b2 hr (by decide +kernel)
  · intro c hc
    rcases List.mem_append.1 hc with hc | hc
    · exact ha c (by simp [hc])
    · rcases h3 with rfl | rfl
      · simp at hc
      · rw [List.mem_singleton.1 hc]; decide +kernel

theorem salvage_text {ss : List (List Char × Nat)} (hv : ∀ p ∈ ss, isBasicText ucd15 p.1 = true) (ha : ∀ p ∈ ss, ∀ c ∈ p.1, isAssigned ucd15 c = true)
    (hj : ∀ p ∈ ss, ∀ c ∈ p.1.head?, isJamoVT c = false) :
    (∀ c ∈ (salvage ss).head?, isStart ucd15 c = true ∧ isJamoVT c = false) ∧ isBasicTextSubstr ucd15 (salvage ss) = true ∧
      ∀ c ∈ salvage ss, isAssigned ucd15 c = true := by
  induction ss with
  | nil => exact ⟨by simp [salvage], by decide +kernel, by simp [salvage]⟩
  | cons p ss ih =>
    obtain ⟨T, n⟩ := p
    obtain ⟨i1, i2, i3⟩ := ih (fun p h => hv p (by simp [h])) (fun p h => ha p (by simp [h])) (fun p h => hj p (by simp [h]))
    obtain ⟨l1, l2, l3⟩ := leftOf_text (hv (T, n) (by simp)) (ha (T, n) (by simp)) n
    show (∀ c ∈ (leftOf T n ++ salvage ss).head?, _) ∧ isBasicTextSubstr ucd15 (leftOf T n ++ salvage ss) = true ∧ ∀ c ∈ leftOf T n ++ salvage ss, _
    refine ⟨?_, substr_append textLaws15 l2 i2 i1, ?_⟩
    · intro c hc
      cases hl : leftOf T n with
      | nil => rw [hl] at hc; exact i1 c hc
      | cons a r =>
        rw [hl] at hc l1
        simp only [List.cons_append, List.head?_cons, Option.mem_some_iff] at hc
        obtain ⟨k1, k2⟩ := l1 c (by simp [hc])
        refine ⟨k1, ?_⟩
        rcases k2 with k2 | rfl
        · exact hj (T, n) (by simp) c k2
        · decide
    · intro c hc
      rcases List.mem_append.1 hc with hc | hc
      · exact l3 c hc
      · exact i3 c hc

/-- C144: sessions of writing Basic Text of assigned scalars, each appended to the file, and each broken off after any number of bytes (or
not at all).  A reader of the file, in whatever pieces its bytes come, delivers of each session the scalars that are there completely, and
U+FFFD where one was broken; and at the end what text needs there.  No session but the first begins with a conjoining vowel or final
consonant. -/
theorem c144_read (T : List Char) (n : Nat) (ss : List (List Char × Nat)) (hv : ∀ p ∈ (T, n) :: ss, isBasicText ucd15 p.1 = true)
    (ha : ∀ p ∈ (T, n) :: ss, ∀ c ∈ p.1, isAssigned ucd15 c = true) (hj : ∀ p ∈ ss, ∀ c ∈ p.1.head?, isJamoVT c = false)
    (nel lsps : Bool) (bs : List Bytes) (last : Bytes) (hb : bs.flatten ++ last = crashed ((T, n) :: ss)) (lens : List Nat)
    (h : Completes ucd15 nel lsps (byteScript bs last) lens) :
    output ucd15 nel lsps (byteScript bs last) lens = salvage ((T, n) :: ss) ++ closing (salvage ((T, n) :: ss)) := by
  have e1 : (decodeReads [] bs last).1.flatten ++ (decodeReads [] bs last).2 = salvage ((T, n) :: ss) := by
    rw [c74_pieces_decode bs last, hb, lossy_crashed]
  obtain ⟨i1, i2, i3⟩ := salvage_text (ss := ss) (fun p h => hv p (by simp [h])) (fun p h => ha p (by simp [h])) hj
  obtain ⟨l1, l2, l3⟩ := leftOf_text (hv (T, n) (by simp)) (ha (T, n) (by simp)) n
  have hw : salvage ((T, n) :: ss) = leftOf T n ++ salvage ss := rfl
  have w1 : ∀ c ∈ (salvage ((T, n) :: ss)).head?, isStart ucd15 c = true := by
    rw [hw]
    intro c hc
    cases hl : leftOf T n with
    | nil => rw [hl] at hc; exact (i1 c hc).1
    | cons a r => rw [hl] at hc l1; exact (l1 c hc).1
  have w2 : isBasicTextSubstr ucd15 (salvage ((T, n) :: ss)) = true := substr_append textLaws15 l2 i2 i1
  have w3 : ∀ c ∈ salvage ((T, n) :: ss), isAssigned ucd15 c = true := by
    rw [hw]
    intro c hc
    rcases List.mem_append.1 hc with hc | hc
    · exact l3 c hc
    · exact i3 c hc
  have hB : ((decodeReads [] bs last).1.flatten ++ (decodeReads [] bs last).2).head? ≠ some BOM := by
    rw [e1]
    intro hc
    have := (substr_iff.1 w2).1 BOM (List.mem_of_mem_head? hc)
    exact (ok_not_special this).2.2.2.2.2.2 rfl
  have ho := output_stream textLaws15 (Or.inr hB) (clear_of textLaws15 (Or.inl (by rw [e1]; exact w3))) h
  rw [e1, stream_beginning w1 w2 w3] at ho
  exact ho

theorem leftOf_all {T : List Char} : ∀ {n : Nat}, (encode T).length ≤ n → leftOf T n = T := by
  induction T with
  | nil => intro n _; rfl
  | cons c T ih =>
    intro n hn
    rw [encode_cons, List.length_append, encodeChar_length] at hn
    simp only [leftOf]
    rw [if_pos (by omega), ih (by omega)]

theorem leftOf_append {a t : List Char} : ∀ {n : Nat}, (encode a).length ≤ n → ∃ r, leftOf (a ++ t) n = a ++ r := by
  induction a with
  | nil => intro n _; exact ⟨_, rfl⟩
  | cons c a ih =>
    intro n hn
    rw [encode_cons, List.length_append, encodeChar_length] at hn
    obtain ⟨r, hr⟩ := ih (n := n - utf8Len c) (by omega)
    exact ⟨r, by simp only [List.cons_append, leftOf]; rw [if_pos (by omega), hr]⟩

/-- C144 by lines: every line of every session that is there completely, but for the first one of a session, is a line of what is delivered. -/
theorem c144_lines (T : List Char) (n : Nat) (ss : List (List Char × Nat)) (hv : ∀ p ∈ (T, n) :: ss, isBasicText ucd15 p.1 = true)
    (ha : ∀ p ∈ (T, n) :: ss, ∀ c ∈ p.1, isAssigned ucd15 c = true) (hj : ∀ p ∈ ss, ∀ c ∈ p.1.head?, isJamoVT c = false)
    (nel lsps : Bool) (bs : List Bytes) (last : Bytes) (hb : bs.flatten ++ last = crashed ((T, n) :: ss)) (lens : List Nat)
    (h : Completes ucd15 nel lsps (byteScript bs last) lens) (p : List Char × Nat) (hp : p ∈ (T, n) :: ss) (a l t : List Char)
    (hl : p.1 = (a ++ '\n' :: l ++ ['\n']) ++ t) (hn : (encode (a ++ '\n' :: l ++ ['\n'])).length ≤ p.2) :
    ∃ x y, output ucd15 nel lsps (byteScript bs last) lens = x ++ '\n' :: l ++ '\n' :: y := by
  rw [c144_read T n ss hv ha hj nel lsps bs last hb lens h]
  obtain ⟨r, hr⟩ := leftOf_append (t := t) hn
  obtain ⟨s1, s2, hs⟩ := List.append_of_mem hp
  rw [← hl] at hr
  refine ⟨salvage s1 ++ a, r ++ salvage s2 ++ closing (salvage ((T, n) :: ss)), ?_⟩
  have : salvage ((T, n) :: ss) = salvage s1 ++ (leftOf p.1 p.2 ++ salvage s2) := by rw [hs]; simp [salvage]
  generalize closing (salvage ((T, n) :: ss)) = z
  rw [this, hr]
  simp

/-- C144: the first line of a session comes right behind what is left of the earlier ones, so it is a line of its own if that
is nothing or ends with a newline. -/
theorem c144_first_line (T : List Char) (n : Nat) (ss : List (List Char × Nat)) (hv : ∀ p ∈ (T, n) :: ss, isBasicText ucd15 p.1 = true)
    (ha : ∀ p ∈ (T, n) :: ss, ∀ c ∈ p.1, isAssigned ucd15 c = true) (hj : ∀ p ∈ ss, ∀ c ∈ p.1.head?, isJamoVT c = false)
    (nel lsps : Bool) (bs : List Bytes) (last : Bytes) (hb : bs.flatten ++ last = crashed ((T, n) :: ss)) (lens : List Nat)
    (h : Completes ucd15 nel lsps (byteScript bs last) lens) (s1 s2 : List (List Char × Nat)) (l t : List Char) (m : Nat)
    (hs : (T, n) :: ss = s1 ++ ((l ++ ['\n']) ++ t, m) :: s2) (hn : (encode (l ++ ['\n'])).length ≤ m) :
    ∃ y, output ucd15 nel lsps (byteScript bs last) lens = salvage s1 ++ (l ++ '\n' :: y) := by
  rw [c144_read T n ss hv ha hj nel lsps bs last hb lens h]
  obtain ⟨r, hr⟩ := leftOf_append (t := t) hn
  refine ⟨r ++ salvage s2 ++ closing (salvage ((T, n) :: ss)), ?_⟩
  have : salvage ((T, n) :: ss) = salvage s1 ++ (leftOf ((l ++ ['\n']) ++ t) m ++ salvage s2) := by rw [hs]; simp [salvage]
  generalize closing (salvage ((T, n) :: ss)) = z
  rw [this, hr]
  simp

/-- C144: sessions of which everything got there are delivered as they are, one behind the other. -/
theorem c144_complete (T : List Char) (n : Nat) (ss : List (List Char × Nat)) (hv : ∀ p ∈ (T, n) :: ss, isBasicText ucd15 p.1 = true)
    (ha : ∀ p ∈ (T, n) :: ss, ∀ c ∈ p.1, isAssigned ucd15 c = true) (hj : ∀ p ∈ ss, ∀ c ∈ p.1.head?, isJamoVT c = false)
    (nel lsps : Bool) (bs : List Bytes) (last : Bytes) (hb : bs.flatten ++ last = crashed ((T, n) :: ss)) (lens : List Nat)
    (h : Completes ucd15 nel lsps (byteScript bs last) lens) (hn : ∀ p ∈ (T, n) :: ss, (encode p.1).length ≤ p.2) :
    output ucd15 nel lsps (byteScript bs last) lens = ((T, n) :: ss).flatMap (·.1) ++ closing (((T, n) :: ss).flatMap (·.1)) := by
  have : salvage ((T, n) :: ss) = ((T, n) :: ss).flatMap (·.1) := by
    generalize (T, n) :: ss = l at hn
    induction l with
    | nil => rfl
    | cons p l ih =>
      show leftOf p.1 p.2 ++ salvage l = p.1 ++ l.flatMap (·.1)
      rw [leftOf_all (hn p (by simp)), ih fun q h => hn q (by simp [h])]
  rw [c144_read T n ss hv ha hj nel lsps bs last hb lens h, this]

/-- C144 with the writers: each session is calls on a new `TextWriter` whose stream has room for a number of bytes. -/
theorem c144_sessions (ops : List Op) (n : Nat) (ss : List (List Op × Nat)) (ho : ∀ p ∈ (ops, n) :: ss, ∀ op ∈ p.1, op.Ok ucd15)
    (hv : ∀ p ∈ (ops, n) :: ss, isBasicText ucd15 (run ucd15 (.new goodSink) p.1).sink.sent = true)
    (ha : ∀ p ∈ (ops, n) :: ss, ∀ c ∈ (run ucd15 (.new goodSink) p.1).sink.sent, isAssigned ucd15 c = true)
    (hj : ∀ p ∈ ss, ∀ c ∈ (run ucd15 (.new goodSink) p.1).sink.sent.head?, isJamoVT c = false)
    (nel lsps : Bool) (bs : List Bytes) (last : Bytes)
    (hb : bs.flatten ++ last = ((ops, n) :: ss).flatMap fun p => ((OnDisk.start (.new goodSink) p.2).run ucd15 p.1).bytes) (lens : List Nat)
    (h : Completes ucd15 nel lsps (byteScript bs last) lens) :
    ∃ W, W = ((ops, n) :: ss).flatMap (fun p => leftOf (run ucd15 (.new goodSink) p.1).sink.sent p.2) ∧
      output ucd15 nel lsps (byteScript bs last) lens = W ++ closing W := by
  refine ⟨_, rfl, ?_⟩
  have key := c144_read (run ucd15 (.new goodSink) ops).sink.sent n (ss.map fun p => ((run ucd15 (.new goodSink) p.1).sink.sent, p.2))
    (by intro p hp
        rcases List.mem_cons.1 hp with rfl | hp
        · exact hv (ops, n) (by simp)
        · obtain ⟨q, hq, rfl⟩ := List.mem_map.1 hp; exact hv q (by simp [hq]))
    (by intro p hp
        rcases List.mem_cons.1 hp with rfl | hp
        · exact ha (ops, n) (by simp)
        · obtain ⟨q, hq, rfl⟩ := List.mem_map.1 hp; exact ha q (by simp [hq]))
    (by intro p hp; obtain ⟨q, hq, rfl⟩ := List.mem_map.1 hp; exact hj q hq)
    nel lsps bs last
    (by rw [hb]
        show _ = crashed (((ops, n) :: ss).map fun p => ((run ucd15 (.new goodSink) p.1).sink.sent, p.2))
        generalize (ops, n) :: ss = l at ho
        induction l with
        | nil => rfl
        | cons p l ih =>
          rw [List.flatMap_cons, ih fun q h => ho q (by simp [h]), c143_bytes _ rfl _ (ho p (by simp))]
          simp only [crashed, List.map_cons, List.flatMap_cons]
          congr 2
          simp [Writer.new, goodSink, encode])
    lens h
  have e : salvage (((run ucd15 (.new goodSink) ops).sink.sent, n) :: ss.map fun p => ((run ucd15 (.new goodSink) p.1).sink.sent, p.2)) =
      ((ops, n) :: ss).flatMap (fun p => leftOf (run ucd15 (.new goodSink) p.1).sink.sent p.2) := by
    simp [salvage, List.flatMap_map]
  rw [key, e]

/-- Two crashes, one inside `é`, and a session to the end. -/
example : crashed [(['a', '\n', 'b', 'é', '\n'], 4), (['c', '\n'], 1), (['d', '\n', 'e', '\n'], 4)] =
      [0x61, 0x0a, 0x62, 0xc3, 0x63, 0x64, 0x0a, 0x65, 0x0a] ∧
    salvage [(['a', '\n', 'b', 'é', '\n'], 4), (['c', '\n'], 1), (['d', '\n', 'e', '\n'], 4)] =
      ['a', '\n', 'b', '�', 'c', 'd', '\n', 'e', '\n'] ∧
    (∀ p ∈ [(['a', '\n', 'b', 'é', '\n'], 4), (['c', '\n'], 1), (['d', '\n', 'e', '\n'], 4)], isBasicText ucd15 p.1 = true ∧
      ∀ c ∈ p.1, isAssigned ucd15 c = true ∧ isJamoVT c = false) ∧
    Completes ucd15 false false (byteScript [] [0x61, 0x0a, 0x62, 0xc3, 0x63, 0x64, 0x0a, 0x65, 0x0a]) [136] :=
  ⟨by decide +kernel, by decide +kernel, by decide +kernel, completes_of (by decide +kernel)⟩

/-- The condition on first scalars is needed: what is left of one session, and the vowel with which the next begins, are read as one syllable. -/
theorem c144_refuted_vowel : isBasicText ucd15 ['ᄀ', '\n'] = true ∧ isBasicText ucd15 ['ᅡ', '\n'] = true ∧
    (∀ c ∈ ['ᄀ', 'ᅡ', '\n'], isAssigned ucd15 c = true) ∧
    salvage [(['ᄀ', '\n'], 3), (['ᅡ', '\n'], 4)] = ['ᄀ', 'ᅡ', '\n'] ∧
    Completes ucd15 false false (byteScript [] (crashed [(['ᄀ', '\n'], 3), (['ᅡ', '\n'], 4)])) [136] ∧
    output ucd15 false false (byteScript [] (crashed [(['ᄀ', '\n'], 3), (['ᅡ', '\n'], 4)])) [136] = ['가', '\n'] :=
  ⟨by decide +kernel, by decide +kernel, by decide +kernel, by decide +kernel, completes_of (by decide +kernel), by decide +kernel⟩

end Verif
