import Verif.Internals
import Verif.Utf8

/-!
# Reading lines

Model of `src/buf_read_text.rs` over `std::io::BufRead`.  The lossy string conversion is a parameter `conv`, since
its result depends on how the byte slice it reads is cut up; the theorems ask of `conv` only that each of its values
is one that `from_text_lossy` can return.
-/

namespace Verif

/-- One result of `BufRead::fill_buf`: buffered bytes (none at the end), `ErrorKind::Interrupted`, or another error. -/
inductive BufEvent where
  | data (b : Bytes)
  | interrupted
  | err
  deriving DecidableEq, Repr

/-- `std::io::read_until` with delimiter U+A (standard library): the bytes taken, whether the call succeeded, and what
is left of the source.  A source that has run out keeps reporting its end. -/
def readUntil : List BufEvent → Bytes × Bool × List BufEvent
  | [] => ([], true, [])
  | .interrupted :: r => readUntil r
  | .err :: r => ([], false, r)
  | .data b :: r =>
    if 10 ∈ b then
      let used := b.idxOf 10 + 1
      (b.take used, true, if b.drop used = [] then r else .data (b.drop used) :: r)
    else if b = [] then ([], true, r)
    else let x := readUntil r; (b ++ x.1, x.2.1, x.2.2)

/-- The result of reading a line; both `notUtf8` and `notText` have `ErrorKind::InvalidData`. -/
inductive LineRet where
  | ok (n : Nat)
  | ioError
  | notUtf8
  | notText
  deriving DecidableEq, Repr

structure LineResult where
  ret : LineRet
  buf : List Char
  src : List BufEvent
  deriving DecidableEq, Repr

/-- `BufRead::read_line` (standard library, `append_to_string`): the bytes of the line are appended if they are UTF-8, also
when reading them ended with an error. -/
def readLine (buf : List Char) (src : List BufEvent) : LineResult :=
  let x := readUntil src
  match fromUtf8 x.1 with
  | some s => { ret := if x.2.1 then .ok x.1.length else .ioError, buf := buf ++ s, src := x.2.2 }
  | none => { ret := if x.2.1 then .notUtf8 else .ioError, buf, src := x.2.2 }

/-- `BufReadText::read_text_line` (`src/buf_read_text.rs:21-33`). -/
def readTextLine (U : Ucd) (buf : List Char) (src : List BufEvent) : LineResult :=
  let x := readLine buf src
  match x.ret with
  | .ok n => if isBasicText U x.buf then { x with ret := .ok n } else { x with ret := .notText, buf := [] }
  | _ => x

/-- `BufReadText::read_text_line_lossy` (`src/buf_read_text.rs:45-53`). -/
def readTextLineLossy (conv : List Char → List Char) (buf : List Char) (src : List BufEvent) : LineResult :=
  let x := readLine buf src
  match x.ret with
  | .ok n => { x with ret := .ok n, buf := conv x.buf }
  | _ => x

/-- The result of `Iterator::next`; `panic` is a failed `debug_assert!`. -/
inductive Next where
  | done
  | item (t : List Char)
  | err (e : LineRet)
  | panic
  deriving DecidableEq, Repr

/-- The common part of the two iterators (`src/buf_read_text.rs:94-97`, `134-137`): the last scalar is removed; with debug
assertions it has to be U+A and not to follow U+D. `none` is a panic. -/
def popLine (debug : Bool) (buf : List Char) : Option (List Char) :=
  if debug && (buf.getLast? != some '\n' || buf.dropLast.getLast? == some '\r') then none else some buf.dropLast

/-- `TextLines::next` (`src/buf_read_text.rs:90-112`). -/
def textLinesNext (U : Ucd) (debug : Bool) (src : List BufEvent) : Next × List BufEvent :=
  let x := readTextLine U [] src
  match x.ret with
  | .ok 0 => (.done, x.src)
  | .ok _ =>
    match popLine debug x.buf with
    | none => (.panic, x.src)
    | some buf =>
      match buf.getLast? with
      | some c => (if isEnd c then .item buf else .err .notText, x.src)
      | none => (.item buf, x.src)
  | e => (.err e, x.src)

/-- `TextLinesLossy::next` (`src/buf_read_text.rs:130-151`). -/
def textLinesLossyNext (conv : List Char → List Char) (debug : Bool) (src : List BufEvent) : Next × List BufEvent :=
  let x := readTextLineLossy conv [] src
  match x.ret with
  | .ok 0 => (.done, x.src)
  | .ok _ =>
    match popLine debug x.buf with
    | none => (.panic, x.src)
    | some buf =>
      match buf.getLast? with
      | some c => (.item (if isEnd c then buf else buf ++ [CGJ]), x.src)
      | none => (.item buf, x.src)
  | e => (.err e, x.src)

/-- At most `n` calls of `next`, up to the first that returns `None` or panics. -/
def iterate (next : List BufEvent → Next × List BufEvent) : Nat → List BufEvent → List Next
  | 0, _ => []
  | n + 1, src =>
    let x := next src
    match x.1 with
    | .done => [.done]
    | .panic => [.panic]
    | i => i :: iterate next n x.2

/-! ## Theory -/

/-- A source without errors and without an early end. -/
def Steady (src : List BufEvent) : Prop := ∀ e ∈ src, e ≠ .err ∧ e ≠ .data []

/-- The bytes of a source. -/
def bytesOf (src : List BufEvent) : Bytes := src.flatMap fun e => match e with | .data b => b | _ => []

theorem idxOf_append {p q : Bytes} (h : 10 ∉ p) : (p ++ 10 :: q).idxOf 10 = p.length := by
  induction p with
  | nil => simp
  | cons a p ih =>
    simp only [List.mem_cons, not_or] at h
    have : (a == 10) = false := by simpa using fun hc => h.1 hc.symm
    rw [List.cons_append, List.idxOf_cons, this, cond_false, ih h.2, List.length_cons]

/-- A line that is terminated. -/
theorem readUntil_line : ∀ (src : List BufEvent) (p q : Bytes), Steady src → bytesOf src = p ++ 10 :: q → 10 ∉ p →
    ∃ src', readUntil src = (p ++ [10], true, src') ∧ Steady src' ∧ bytesOf src' = q := by
  intro src
  induction src with
  | nil => intro p q _ h; simp [bytesOf] at h
  | cons e src ih =>
    intro p q hs h hp
    have hs' : Steady src := fun x hx => hs x (List.mem_cons_of_mem _ hx)
    cases e with
    | err => exact absurd rfl (hs _ (List.mem_cons_self)).1
    | interrupted => exact ih p q hs' (by simpa [bytesOf] using h) hp
    | data b =>
      have hb : b ++ bytesOf src = p ++ 10 :: q := by simpa [bytesOf] using h
      rw [readUntil]
      by_cases hm : 10 ∈ b
      · rw [if_pos hm]
        obtain ⟨x, y, rfl, hx⟩ := List.eq_append_cons_of_mem hm
        rw [List.append_assoc, List.cons_append] at hb
        have hxp : x = p := by
          rcases List.append_eq_append_iff.1 hb with ⟨a, h1, h2⟩ | ⟨a, h1, h2⟩
          · cases a with
            | nil => rw [h1, List.append_nil]
            | cons z a =>
              rw [List.cons_append] at h2
              injection h2 with h3 h4
              subst h3; exact absurd (by rw [h1]; simp) hp
          · cases a with
            | nil => rw [h1, List.append_nil]
            | cons z a =>
              rw [List.cons_append] at h2
              injection h2 with h3 h4
              subst h3; exact absurd (by rw [h1]; simp) hx
        subst hxp
        have hq : y ++ bytesOf src = q := by
          have := List.append_cancel_left hb
          injection this
        have ht : (x ++ 10 :: y).take (x.length + 1) = x ++ [10] := by
          rw [show x ++ 10 :: y = (x ++ [10]) ++ y by simp]
          exact List.take_left' (by simp)
        have hd : (x ++ 10 :: y).drop (x.length + 1) = y := by
          rw [show x ++ 10 :: y = (x ++ [10]) ++ y by simp]
          exact List.drop_left' (by simp)
        rw [idxOf_append hx]
        simp only [ht, hd]
        split
        · rename_i hy
          exact ⟨src, rfl, hs', by rw [← hq, hy]; rfl⟩
        · rename_i hy
          refine ⟨.data y :: src, rfl, ?_, by rw [← hq]; simp [bytesOf]⟩
          intro e he
          simp only [List.mem_cons] at he
          rcases he with rfl | he
          · simp [hy]
          · exact hs' e he
      · rw [if_neg hm, if_neg (fun hc => (hs _ List.mem_cons_self).2 (by rw [hc]))]
        have hlen : ∃ p', p = b ++ p' ∧ bytesOf src = p' ++ 10 :: q := by
          rcases List.append_eq_append_iff.1 hb with ⟨a, h1, h2⟩ | ⟨a, h1, h2⟩
          · exact ⟨a, h1, h2⟩
          · cases a with
            | nil => exact ⟨[], by simpa using h1.symm, by simpa using h2.symm⟩
            | cons z a =>
              rw [List.cons_append] at h2
              injection h2 with h3 h4
              subst h3; exact absurd (by rw [h1]; simp) hm
        obtain ⟨p', rfl, h2⟩ := hlen
        obtain ⟨src', i1, i2, i3⟩ := ih p' q hs' h2 (fun hc => hp (by simp [hc]))
        exact ⟨src', by simp [i1], i2, i3⟩

/-- The last line, if it is not terminated. -/
theorem readUntil_rest : ∀ (src : List BufEvent), Steady src → 10 ∉ bytesOf src → readUntil src = (bytesOf src, true, []) := by
  intro src
  induction src with
  | nil => intro _ _; rfl
  | cons e src ih =>
    intro hs h
    have hs' : Steady src := fun x hx => hs x (List.mem_cons_of_mem _ hx)
    cases e with
    | err => exact absurd rfl (hs _ (List.mem_cons_self)).1
    | interrupted => exact ih hs' (by simpa [bytesOf] using h)
    | data b =>
      simp only [bytesOf, List.flatMap_cons, List.mem_append, not_or] at h
      rw [readUntil, if_neg h.1, if_neg (fun hc => (hs _ List.mem_cons_self).2 (by rw [hc])), ih hs' h.2]
      simp [bytesOf]

/-- Whatever a call takes is a line: no U+A but at the end. -/
theorem readUntil_shape : ∀ (src : List BufEvent), ∃ p, 10 ∉ p ∧ ((readUntil src).1 = p ∨ ((readUntil src).1 = p ++ [10] ∧ (readUntil src).2.1 = true)) := by
  intro src
  induction src with
  | nil => exact ⟨[], by simp, Or.inl rfl⟩
  | cons e src ih =>
    cases e with
    | err => exact ⟨[], by simp, Or.inl rfl⟩
    | interrupted => exact ih
    | data b =>
      rw [readUntil]
      by_cases hm : 10 ∈ b
      · rw [if_pos hm]
        obtain ⟨x, y, rfl, hx⟩ := List.eq_append_cons_of_mem hm
        rw [idxOf_append hx]
        refine ⟨x, hx, Or.inr ⟨?_, rfl⟩⟩
        simp only
        rw [show x ++ 10 :: y = (x ++ [10]) ++ y by simp]
        exact List.take_left' (by simp)
      · rw [if_neg hm]
        split
        · exact ⟨[], by simp, Or.inl rfl⟩
        · obtain ⟨p, h1, h2⟩ := ih
          refine ⟨b ++ p, by simp [h1, hm], ?_⟩
          rcases h2 with h2 | ⟨h2, h3⟩
          · exact Or.inl (by simp [h2])
          · exact Or.inr ⟨by simp [h2], h3⟩

/-- The last byte of a scalar's encoding is U+A only for U+A. -/
theorem encodeChar_last {c : Char} (h : (encodeChar c).getLast? = some 10) : c = '\n' := by
  have hr := char_range c
  have key : ∀ n, n < 128 → some (UInt8.ofNat (128 + n)) ≠ some 10 := by
    intro n hn hc
    injection hc with hc
    have := congrArg UInt8.toNat hc
    rw [u8 (by omega)] at this
    have h10 : (10 : UInt8).toNat = 10 := rfl
    omega
  unfold encodeChar at h
  simp only at h
  split at h
  · simp at h
    have := congrArg UInt8.toNat h
    rw [u8 (by omega)] at this
    have h10 : (10 : UInt8).toNat = 10 := rfl
    rw [← ofNat_toNat' c rfl, show c.toNat = 10 by omega]
  · exfalso
    split at h
    · simp only [List.getLast?_cons_cons, List.getLast?_singleton] at h
      exact key _ (by omega) h
    · split at h
      · simp only [List.getLast?_cons_cons, List.getLast?_singleton] at h
        exact key _ (by omega) h
      · simp only [List.getLast?_cons_cons, List.getLast?_singleton] at h
        exact key _ (by omega) h

theorem encode_nl : encode ['\n'] = [10] := by decide

/-- A terminated line is UTF-8 when the line is. -/
theorem fromUtf8_nl (l : Bytes) : fromUtf8 (l ++ [10]) = (fromUtf8 l).map (· ++ ['\n']) := by
  cases h : fromUtf8 l with
  | some s =>
    rw [fromUtf8_some h, ← encode_nl, ← encode_append, fromUtf8_encode]; rfl
  | none =>
    cases h2 : fromUtf8 (l ++ [10]) with
    | none => rfl
    | some t =>
      exfalso
      have h3 := fromUtf8_some h2
      rcases List.eq_nil_or_concat t with rfl | ⟨t', c, rfl⟩
      · simp [encode] at h3
      · rw [List.concat_eq_append, encode_append] at h3
        have hc : encode [c] = encodeChar c := by simp [encode]
        rw [hc] at h3
        have hl := congrArg List.getLast? h3
        rw [List.getLast?_append, List.getLast?_append] at hl
        cases hq : (encodeChar c).getLast? with
        | none => rw [List.getLast?_eq_none_iff] at hq; exact encodeChar_ne_nil c hq
        | some x =>
          rw [hq] at hl
          simp at hl
          rw [← hl] at hq
          rw [encodeChar_last hq, show encodeChar '\n' = [10] by decide] at h3
          have h4 := (List.append_inj' h3 rfl).1
          rw [h4, fromUtf8_encode] at h
          simp at h

end Verif
