import Verif.Pad
import Verif.Cjk
import Verif.Props.Join
import Verif.Props.Everyday
import Verif.Props.Sharper
import Verif.Props.PiecesExact

/-!
# Property C120: text printed with a width and a precision
-/

namespace Verif
open Ucd Spec Tables

/-- The text as far as the precision lets it through. -/
def Spec.upTo (precision : Option Nat) (s : List Char) : List Char := match precision with | some p => s.take p | none => s

theorem upTo_prefix (p : Option Nat) (s : List Char) : ∃ r, s = upTo p s ++ r := by
  cases p with
  | none => exact ⟨[], by simp [upTo]⟩
  | some p => exact ⟨s.drop p, by simp [upTo]⟩

/-- The pieces written, with the numbers of fill scalars before and behind the text. -/
theorem pieces_shape (fill : Char) (align : Align) (w p : Option Nat) (s : List Char) :
    (∃ a b, displayPieces fill align w p s = List.replicate a [fill] ++ upTo p s :: List.replicate b [fill] ∧
      a + b = w.getD 0 - (upTo p s).length ∧
      (align = .left → a = 0) ∧ (align = .right → b = 0) ∧ (align = .center → b = a ∨ b = a + 1)) := by
  have e : displayPieces fill align w p s = (match w with
      | none => [upTo p s]
      | some w => if w ≤ (upTo p s).length then [upTo p s]
        else List.replicate (match align with | .left => 0 | .right => w - (upTo p s).length | .center => (w - (upTo p s).length) / 2) [fill] ++
          upTo p s :: List.replicate (w - (upTo p s).length -
            (match align with | .left => 0 | .right => w - (upTo p s).length | .center => (w - (upTo p s).length) / 2)) [fill]) := rfl
  rw [e]
  cases w with
  | none => exact ⟨0, 0, rfl, by simp, fun _ => rfl, fun _ => rfl, fun _ => Or.inl rfl⟩
  | some w =>
    simp only [Option.getD_some]
    split
    · rename_i h
      exact ⟨0, 0, rfl, by omega, fun _ => rfl, fun _ => rfl, fun _ => Or.inl rfl⟩
    · rename_i h
      refine ⟨_, _, rfl, ?_, ?_, ?_, ?_⟩
      · cases align <;> simp only <;> omega
      · rintro rfl; rfl
      · rintro rfl; simp
      · rintro rfl; simp only; omega

theorem flatten_ones (n : Nat) (c : Char) : (List.replicate n [c]).flatten = List.replicate n c := by
  induction n with
  | zero => rfl
  | succ n ih => rw [List.replicate_succ, List.flatten_cons, ih]; rfl

/-- C120: what is printed is the text, as far as the precision lets it through, with the fill scalar as often as the width demands: behind it, before it, or
on both sides with at most one more behind it. So it has as many scalars as the width says, or as the text if that has more. -/
theorem c120_shape (fill : Char) (align : Align) (w p : Option Nat) (s : List Char) :
    (∃ a b, display fill align w p s = List.replicate a fill ++ upTo p s ++ List.replicate b fill ∧ a + b = w.getD 0 - (upTo p s).length ∧
      (align = .left → a = 0) ∧ (align = .right → b = 0) ∧ (align = .center → b = a ∨ b = a + 1)) ∧
    (display fill align w p s).length = max (w.getD 0) (upTo p s).length := by
  obtain ⟨a, b, h1, h2, h3⟩ := pieces_shape fill align w p s
  have h4 : display fill align w p s = List.replicate a fill ++ upTo p s ++ List.replicate b fill := by
    rw [display, h1, List.flatten_append, List.flatten_cons, flatten_ones, flatten_ones, List.append_assoc]
  refine ⟨⟨a, b, h4, h2, h3⟩, ?_⟩
  rw [h4]
  simp only [List.length_append, List.length_replicate]
  omega

/-- Without width and precision the text is printed as it is. -/
theorem c120_plain (fill : Char) (align : Align) (s : List Char) : display fill align none none s = s := by
  simp [display, displayPieces]

theorem rep_printable {f : Char} (hf : Printable f) (n : Nat) : ∀ c ∈ List.replicate n f, Printable c := by
  intro c hc
  rw [List.eq_of_mem_replicate hc]; exact hf

theorem rep_ascii {f : Char} (hf : Printable f) (n : Nat) : ∀ c ∈ List.replicate n f, c.toNat ≤ 0x7f :=
  fun c hc => printable_ascii (rep_printable hf n c hc)

theorem padded_substr {f : Char} (hf : Printable f) {s : List Char} (hs : isBasicTextSubstr ucd15 s = true)
    (hh : ∀ c ∈ s.head?, isStart ucd15 c = true) (a b : Nat) :
    isBasicTextSubstr ucd15 (List.replicate a f ++ s ++ List.replicate b f) = true ∧
    (∀ c ∈ (List.replicate a f ++ s ++ List.replicate b f).head?, isStart ucd15 c = true) := by
  have hrep : ∀ n, isBasicTextSubstr ucd15 (List.replicate n f) = true := fun n => (ascii_substr (rep_ascii hf n)).2 (rep_printable hf n)
  have hst : isStart ucd15 f = true := textLaws15.start_ascii f (printable_ascii hf)
  have hrh : ∀ n, ∀ c ∈ (List.replicate n f).head?, isStart ucd15 c = true := by
    intro n c hc
    rw [List.eq_of_mem_replicate (List.mem_of_mem_head? hc)]; exact hst
  have hl := printable_ascii hf
  have h1 : isBasicTextSubstr ucd15 (List.replicate a f ++ s) = true := by
    rw [substr_append_iff textLaws15 (hrep a) hs hh]
    intro x hx c hc
    rw [joins_iff (hh c hc), List.eq_of_mem_replicate (List.mem_of_mem_getLast? hx)]
    unfold HangulJoin
    omega
  have hh1 : ∀ c ∈ (List.replicate a f ++ s).head?, isStart ucd15 c = true := by
    intro c hc
    cases a with
    | zero => exact hh c (by simpa using hc)
    | succ a =>
      simp only [List.replicate_succ, List.cons_append, List.head?_cons, Option.mem_def, Option.some.injEq] at hc
      rw [← hc]; exact hst
  refine ⟨?_, ?_⟩
  · rw [substr_append_iff textLaws15 h1 (hrep b) (hrh b)]
    intro x hx c hc
    rw [joins_iff (hrh b c hc), List.eq_of_mem_replicate (List.mem_of_mem_head? hc)]
    unfold HangulJoin
    omega
  · intro c hc
    cases hx : List.replicate a f ++ s with
    | nil => rw [hx, List.nil_append] at hc; exact hrh b c hc
    | cons d t =>
      rw [hx] at hh1 hc
      exact hh1 c (by simpa using hc)

/-- C120: a text printed with an ASCII fill scalar is a valid substring, and it is Basic Text exactly if it does not end with a non-ender (U+890 and
U+891 do not count): precision may cut a text behind one. -/
theorem c120_text (fill : Char) (hf : Printable fill) (align : Align) (w p : Option Nat) (s : List Char) (h : fromText (isBasicText ucd15) s = .ok s) :
    fromText (isBasicTextSubstr ucd15) (display fill align w p s) = .ok (display fill align w p s) ∧
    (fromText (isBasicText ucd15) (display fill align w p s) = .ok (display fill align w p s) ↔
      ∀ c ∈ (display fill align w p s).getLast?, ¬ NonEnder c ∨ c = '࢐' ∨ c = '࢑') := by
  obtain ⟨h1, h2, h3⟩ := text_iff.1 (fromText_ok_iff.1 h).1
  obtain ⟨⟨a, b, e, -⟩, -⟩ := c120_shape fill align w p s
  obtain ⟨r, hr⟩ := upTo_prefix p s
  have hs : isBasicTextSubstr ucd15 (upTo p s) = true := substr_prefix textLaws15 (hr ▸ h3)
  have hh : ∀ c ∈ (upTo p s).head?, isStart ucd15 c = true := by
    intro c hc
    refine h1 c ?_
    rw [hr]
    cases hu : upTo p s with
    | nil => rw [hu] at hc; simp at hc
    | cons d t => rw [hu] at hc; exact hc
  have hp := padded_substr hf hs hh a b
  rw [← e] at hp
  refine ⟨fromText_ok hp.1, ?_⟩
  rw [c61_accepted_iff]
  constructor
  · exact fun h => h.2.2
  · intro hl
    refine ⟨(c61_substring _).1 (fromText_ok hp.1), fun c hc hn => ?_, hl⟩
    have := hp.2 c hc
    rw [nonStarter_iff.1 hn] at this; simp at this

/-- C120: if the precision does not cut the text, or the fill scalar stands behind it, what is printed is Basic Text. -/
theorem c120_uncut (fill : Char) (hf : Printable fill) (align : Align) (w p : Option Nat) (s : List Char) (h : fromText (isBasicText ucd15) s = .ok s)
    (hp : (∀ n, p = some n → s.length ≤ n) ∨ (align = .left ∧ (upTo p s).length < w.getD 0)) :
    fromText (isBasicText ucd15) (display fill align w p s) = .ok (display fill align w p s) := by
  rw [(c120_text fill hf align w p s h).2]
  obtain ⟨⟨a, b, e, e2, e3, -⟩, -⟩ := c120_shape fill align w p s
  intro c hc
  have hfill : ¬ NonEnder fill := by
    intro hn
    have hl := printable_ascii hf
    rcases hn with hn | hn
    · subst hn; exact absurd hl (by decide)
    · have : ∀ n : Fin 128, inRanges Tables.gcbPrepend n.val = false := by decide +kernel
      rw [this ⟨fill.toNat, by omega⟩] at hn
      simp at hn
  rw [e] at hc
  cases b with
  | succ b =>
    rw [List.replicate_succ', ← List.append_assoc, List.getLast?_append] at hc
    simp only [List.getLast?_singleton, Option.some_or, Option.mem_def, Option.some.injEq] at hc
    subst hc; exact Or.inl hfill
  | zero =>
    rcases hp with hp | ⟨h1, h2⟩
    · have hu : upTo p s = s := by
        cases p with
        | none => rfl
        | some n => exact List.take_of_length_le (hp n rfl)
      rw [List.replicate_zero, List.append_nil, hu, List.getLast?_append] at hc
      cases hs : s.getLast? with
      | some d =>
        rw [hs, Option.some_or] at hc
        exact ((c61_accepted_iff s).1 h).2.2 c (by rw [hs]; exact hc)
      | none =>
        rw [hs, Option.none_or] at hc
        have := List.eq_of_mem_replicate (List.mem_of_mem_getLast? hc)
        subst this; exact Or.inl hfill
    · have := e3 h1
      omega

/-- Cut behind U+200D, the text is no Basic Text; with a space behind it it is. -/
theorem c120_cut : fromText (isBasicText ucd15) ['a', '‍', 'b'] = .ok ['a', '‍', 'b'] ∧
    fromText (isBasicText ucd15) (display ' ' .right (some 4) (some 2) ['a', '‍', 'b']) ≠
      .ok (display ' ' .right (some 4) (some 2) ['a', '‍', 'b']) ∧
    fromText (isBasicText ucd15) (display ' ' .left (some 4) (some 2) ['a', '‍', 'b']) =
      .ok (display ' ' .left (some 4) (some 2) ['a', '‍', 'b']) := by decide +kernel

/-- ASCII scalars that compose with nothing: no letters but Q, and none of `<`, `=` and `>`. -/
def Spec.NoBase (c : Char) : Prop :=
  0x20 ≤ c.toNat ∧ c.toNat ≤ 0x7e ∧ (¬ (0x41 ≤ c.toNat ∧ c.toNat ≤ 0x5a) ∨ c.toNat = 0x51) ∧
    (¬ (0x61 ≤ c.toNat ∧ c.toNat ≤ 0x7a) ∨ c.toNat = 0x71) ∧ ¬ (0x3c ≤ c.toNat ∧ c.toNat ≤ 0x3e)

/-- The same for numbers. -/
def noBaseN (n : Nat) : Bool :=
  Nat.ble 0x20 n && Nat.ble n 0x7e && (!(Nat.ble 0x41 n && Nat.ble n 0x5a) || Nat.beq n 0x51) && (!(Nat.ble 0x61 n && Nat.ble n 0x7a) || Nat.beq n 0x71) &&
    !(Nat.ble 0x3c n && Nat.ble n 0x3e)

theorem compose_noBase : composeTree.all (fun key _ => !noBaseN (key / 0x200000)) = true := by decide +kernel

theorem noBase_facts : rangeAll (fun n => !noBaseN n || (Nat.beq (cccN n) 0 && decompN n == [n] && QC.beq (qcN n) .yes && classN n == [0, 0, 1])) 0 0x80 = true := by
  decide +kernel

theorem noBase_iff {n : Nat} : noBaseN n = true ↔ 0x20 ≤ n ∧ n ≤ 0x7e ∧ (¬ (0x41 ≤ n ∧ n ≤ 0x5a) ∨ n = 0x51) ∧
    (¬ (0x61 ≤ n ∧ n ≤ 0x7a) ∨ n = 0x71) ∧ ¬ (0x3c ≤ n ∧ n ≤ 0x3e) := by
  simp only [noBaseN, Bool.and_eq_true, Bool.or_eq_true, Bool.not_eq_true', Bool.eq_false_iff, ne_eq, Nat.ble_eq, Nat.beq_eq]
  omega

theorem noBase_divides {c : Char} (h : NoBase c) : Divides ucd15 c := by
  have h1 := noBase_iff.2 h
  have hf := rangeAll_mem noBase_facts (n := c.toNat) (by omega) (by have := h.2.1; omega)
  rw [h1] at hf
  simp only [Bool.not_true, Bool.false_or, Bool.and_eq_true, beq_iff_eq, qcbeq_iff] at hf
  obtain ⟨⟨⟨h2, h3⟩, h4⟩, h5⟩ := hf
  have hd : ucd15.decomp c = [c] := by
    show (decompN c.toNat).map Char.ofNat = [c]
    rw [h3]; simp
  refine ⟨Nat.eq_of_beq_eq_true h2, hd, fun x => ?_, (lawful15.qc_yes c h4).2 c [] hd, ?_, ?_, ?_⟩
  · cases hx : ucd15.compose c x with
    | none => rfl
    | some r =>
      exfalso
      have hb := validN_lt (validN_toNat x)
      have hl := h.2.1
      rcases composeN_cases (by omega) (compose_toNat hx) with ⟨hk, -⟩ | ⟨hk, -⟩ | ⟨hf, -⟩
      · omega
      · simp only [isSyl, Bool.and_eq_true, Nat.ble_eq] at hk
        omega
      · have := Tree.find_all compose_noBase hf
        rw [show (c.toNat * 0x200000 + x.toNat) / 0x200000 = c.toNat by omega, h1] at this
        simp at this
  · show leadN c.toNat = 0; simp [leadN, h5]
  · show trailN c.toNat = 0; simp [trailN, h5]
  · show dlenN c.toNat ≠ 0; simp [dlenN, h5]

theorem nss_divide {U : Ucd} (hU : U.Lawful) {b : Char} (hb : Divides U b) {x y : List Char} (hx : U.isNfcStreamSafe x = true)
    (hy : U.isNfcStreamSafe y = true) : U.isNfcStreamSafe (x ++ b :: y) = true := by
  rw [isNfcStreamSafe_iff hU] at hx hy ⊢
  rw [nfc_divide hb, hx.2, hy.2]
  refine ⟨chk_concat hU ?_ (Nat.zero_le _) hx.1 ?_, rfl⟩
  · intro c hc
    simp only [List.head?_cons, Option.mem_def, Option.some.injEq] at hc
    rw [← hc]; exact ⟨hb.lead, hb.dlen⟩
  · have hn : U.chk 0 [b] = some 0 := by
      have := hb.dlen
      simp only [chk, nxt, hb.lead, hb.trail]
      rw [if_neg (by omega), if_neg (fun h => this h.symm)]
    rw [chk_cons, hn]; exact hy.1

/-- C120: a substring printed with such a fill scalar is a valid substring, whatever it begins with. -/
theorem c120_substr (fill : Char) (hf : NoBase fill) (align : Align) (w p : Option Nat) (s : List Char)
    (h : fromText (isBasicTextSubstr ucd15) s = .ok s) :
    fromText (isBasicTextSubstr ucd15) (display fill align w p s) = .ok (display fill align w p s) := by
  obtain ⟨⟨a, b, e, -⟩, -⟩ := c120_shape fill align w p s
  obtain ⟨r, hr⟩ := upTo_prefix p s
  have hs : isBasicTextSubstr ucd15 (upTo p s) = true := substr_prefix textLaws15 (hr ▸ (fromText_ok_iff.1 h).1)
  have hi := noBase_divides hf
  have hok : okChar fill = true := (ok_ascii (by have := hf.2.1; omega)).2 (Or.inr (Or.inr ⟨hf.1, hf.2.1⟩))
  rw [e]
  refine fromText_ok ?_
  obtain ⟨s1, s2⟩ := substr_iff.1 hs
  rw [substr_iff]
  refine ⟨?_, ?_⟩
  · intro c hc
    rcases List.mem_append.1 hc with hc | hc
    · rcases List.mem_append.1 hc with hc | hc
      · rw [List.eq_of_mem_replicate hc]; exact hok
      · exact s1 c hc
    · rw [List.eq_of_mem_replicate hc]; exact hok
  · have h1 : ucd15.isNfcStreamSafe (List.replicate a fill ++ upTo p s) = true := by
      clear e
      induction a with
      | zero => exact s2
      | succ a ih =>
        rw [List.replicate_succ, List.cons_append]
        exact nss_divide lawful15 hi (x := []) nss_nil ih
    clear e
    induction b with
    | zero => simpa using h1
    | succ b ih =>
      rw [List.replicate_succ', ← List.append_assoc]
      exact nss_divide lawful15 hi ih nss_nil

theorem base_table : ∀ n : Fin 128, Printable (Char.ofNat n.val) → n.val ≠ 10 → n.val ≠ 9 → noBaseN n.val = false →
    ∃ m ∈ ['\u0301', '\u0302', '\u0307', '\u0304', '\u0338', '\u0303'], isBasicTextSubstr ucd15 [m] = true ∧
      isBasicTextSubstr ucd15 [Char.ofNat n.val, m] = false := by decide +kernel

/-- With any other printable ASCII fill scalar there is a substring that does not stay valid. -/
theorem c120_substr_needs (fill : Char) (h1 : 0x20 ≤ fill.toNat ∧ fill.toNat ≤ 0x7e) (h2 : ¬ NoBase fill) :
    ∃ s, fromText (isBasicTextSubstr ucd15) s = .ok s ∧
      fromText (isBasicTextSubstr ucd15) (display fill .right (some 2) none s) ≠ .ok (display fill .right (some 2) none s) := by
  obtain ⟨m, -, hm, hn⟩ := base_table ⟨fill.toNat, by omega⟩ (by rw [Char.ofNat_toNat]; exact Or.inr (Or.inr h1)) (by simp only; omega) (by simp only; omega)
    (by simp only; cases hb : noBaseN fill.toNat with
      | false => rfl
      | true => exact absurd (noBase_iff.1 hb) h2)
  rw [Char.ofNat_toNat] at hn
  refine ⟨[m], fromText_ok hm, fun h => ?_⟩
  have : display fill .right (some 2) none [m] = [fill, m] := by
    simp [display, displayPieces]
  rw [this] at h
  rw [(fromText_ok_iff.1 h).1] at hn
  simp at hn

/-- With `=` as fill scalar, a substring that begins with U+338 does not stay normalized. -/
theorem c120_fill_needed : fromText (isBasicTextSubstr ucd15) ['̸'] = .ok ['̸'] ∧
    fromText (isBasicTextSubstr ucd15) (display '=' .right (some 3) none ['̸']) ≠ .ok (display '=' .right (some 3) none ['̸']) := by
  decide +kernel

example : display '.' .left (some 6) none ['a', '̸', 'b'] = ['a', '̸', 'b', '.', '.', '.'] ∧
    display '*' .center (some 6) (some 3) ['a', 'b', 'c', 'd'] = ['*', 'a', 'b', 'c', '*', '*'] ∧ NoBase '*' ∧
    fromText (isBasicTextSubstr ucd15) ['̸', 'b'] = .ok ['̸', 'b'] := by
  refine ⟨by decide, by decide, by unfold NoBase; decide, by decide +kernel⟩

/-- C120: a text of assigned scalars, printed into a writer with an ASCII fill scalar, arrives as it was printed. -/
theorem c120_written (wr : Writer) (hw : WBetween wr) (fill : Char) (hf : Printable fill) (align : Align) (w p : Option Nat) (s : List Char)
    (h : fromText (isBasicText ucd15) s = .ok s) (ha : ∀ c ∈ s, isAssigned ucd15 c = true) (hne : display fill align w p s ≠ []) :
    writeFmt ucd15 wr (displayPieces fill align w p s) = some (writeStr ucd15 wr (display fill align w p s)) ∧
    (writeStr ucd15 wr (display fill align w p s)).2 = .ok ∧
    (writeStr ucd15 wr (display fill align w p s)).1.sink.sent = wr.sink.sent ++ wire wr.crlf (display fill align w p s) := by
  obtain ⟨h1, h2, h3⟩ := text_iff.1 (fromText_ok_iff.1 h).1
  obtain ⟨a, b, e, -⟩ := pieces_shape fill align w p s
  have e' : display fill align w p s = List.replicate a fill ++ upTo p s ++ List.replicate b fill := by
    rw [display, e, List.flatten_append, List.flatten_cons, flatten_ones, flatten_ones, List.append_assoc]
  obtain ⟨r, hr⟩ := upTo_prefix p s
  have hs : isBasicTextSubstr ucd15 (upTo p s) = true := substr_prefix textLaws15 (hr ▸ h3)
  have hh : ∀ c ∈ (upTo p s).head?, isStart ucd15 c = true := by
    intro c hc
    refine h1 c ?_
    rw [hr]
    cases hu : upTo p s with
    | nil => rw [hu] at hc; simp at hc
    | cons d t => rw [hu] at hc; exact hc
  obtain ⟨p1, p2⟩ := padded_substr hf hs hh a b
  rw [← e'] at p1 p2
  have fa : isAssigned ucd15 fill = true := ascii_assigned' (s := [fill]) (by simpa using printable_ascii hf) fill (by simp)
  have ua : ∀ c ∈ upTo p s, isAssigned ucd15 c = true := fun c hc => ha c (by rw [hr]; simp [hc])
  have da : ∀ c ∈ display fill align w p s, isAssigned ucd15 c = true := by
    intro c hc
    rw [e'] at hc
    rcases List.mem_append.1 hc with hc | hc
    · rcases List.mem_append.1 hc with hc | hc
      · rw [List.eq_of_mem_replicate hc]; exact fa
      · exact ua c hc
    · rw [List.eq_of_mem_replicate hc]; exact fa
  have nw : normChain ucd15 (display fill align w p s) = display fill align w p s := normChain_of_assigned textLaws15 (substr_iff.1 p1).2 da
  have nu : normChain ucd15 (upTo p s) = upTo p s := normChain_of_assigned textLaws15 (substr_iff.1 hs).2 ua
  have nf : normChain ucd15 [fill] = [fill] :=
    normChain_of_assigned textLaws15 (nss_ascii ucd15 (by simpa using printable_ascii hf)) (by simpa using fa)
  have nr : ∀ n, (List.replicate n [fill]).flatMap (normChain ucd15) = List.replicate n fill := by
    intro n
    induction n with
    | zero => rfl
    | succ n ih => rw [List.replicate_succ, List.flatMap_cons, ih, nf]; rfl
  have hp : (displayPieces fill align w p s).flatMap (normChain ucd15) = normChain ucd15 (display fill align w p s) := by
    rw [nw, e, e', List.flatMap_append, List.flatMap_cons, nr, nr, nu, List.append_assoc]
  have hx := c77_exact wr hw (displayPieces fill align w p s) hne
  have hok : (writeStr ucd15 wr (displayPieces fill align w p s).flatten).2 = .ok := by
    rw [hx.2.1]
    exact ⟨fun c hc => okChar_check.1 ((substr_iff.1 p1).1 c hc), fun _ => p2⟩
  refine ⟨(hx.2.2 hok).1.2 hp, hok, ?_⟩
  obtain ⟨g, hg⟩ := hw.state
  have := (write_accepted textLaws15 startLaws15 hw hg (s := display fill align w p s)).1 ⟨(substr_iff.1 p1).1, fun _ => p2⟩
  rw [this, nw]
  rfl

example : WBetween (.new goodSink) ∧ Printable '-' ∧ fromText (isBasicText ucd15) ['é', 'a'] = .ok ['é', 'a'] ∧
    (∀ c ∈ ['é', 'a'], isAssigned ucd15 c = true) ∧ display '-' .center (some 5) (some 1) ['é', 'a'] = ['-', '-', 'é', '-', '-'] ∧
    ((writeFmt ucd15 (.new goodSink) (displayPieces '-' .center (some 5) (some 1) ['é', 'a'])).map (·.1.sink.sent)) =
      some ['-', '-', 'é', '-', '-'] :=
  ⟨(idle_new rfl rfl).between, by decide, by decide +kernel, by decide +kernel, by decide, by decide +kernel⟩

end Verif
