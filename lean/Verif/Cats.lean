import Verif.Lines
import Verif.StreamSafe
import Verif.Splitting

/-!
# `nfc-cat` and `ssnfc-cat`

Model of `examples/nfc-cat.rs` and `examples/ssnfc-cat.rs`.  The source is what `BufReader<Utf8Reader<Stdin>>` buffers; `Utf8Reader` only lets
through UTF-8, and the theorems assume no more than that of the bytes, so they hold whatever the sizes of the pieces.  Standard output is
taken to accept everything.
-/

namespace Verif
namespace Ucd

variable (U : Ucd)

/-- `is_nfc_quick` (dependency `unicode-normalization`, `quick_check` with `stream_safe = false`); the same loop as `quickGo` without
the count of nonstarters. -/
def quickNfcGo : Nat → QC → List Char → QC
  | _, res, [] => res
  | last, res, c :: cs =>
      if c.toNat ≤ 0x7f then quickNfcGo 0 res cs
      else if last > U.ccc c ∧ U.ccc c ≠ 0 then .no
      else if U.qc c = .no then .no
      else quickNfcGo (U.ccc c) (if U.qc c = .maybe then .maybe else res) cs

/-- `is_nfc_quick` (dependency). -/
def quickNfc (s : List Char) : QC := U.quickNfcGo 0 .yes s

end Ucd

/-- What `std::io::Lines::next` (standard library) does to a line that has been read: a final U+A is removed, and then a final U+D. -/
def stripEol (buf : List Char) : List Char :=
  if buf.getLast? = some '\n' then
    (if buf.dropLast.getLast? = some '\r' then buf.dropLast.dropLast else buf.dropLast)
  else buf

/-- The conversion of one line by `nfc-cat` (`examples/nfc-cat.rs:14-19`). -/
def nfcLine (U : Ucd) (line : List Char) : List Char :=
  if U.quickNfc line = .yes then line else U.nfc line

/-- The conversion of one line by `ssnfc-cat` (`examples/ssnfc-cat.rs:14-25`). -/
def ssnfcLine (U : Ucd) (line : List Char) : List Char :=
  if U.quick line = .yes then line else U.nfc (U.streamSafe 0 line)

/-- The loop of both programs (`examples/nfc-cat.rs:12-20`, `examples/ssnfc-cat.rs:12-26`): the bytes written and whether `main` returned `Ok`.
`none`: the loop has not ended after `fuel` lines. -/
def catLoop (line : List Char → List Char) : Nat → List BufEvent → Bytes → Option (Bytes × Bool)
  | 0, _, _ => none
  | fuel + 1, src, out =>
    let x := readLine [] src
    match x.ret with
    | .ok 0 => some (out, true)
    | .ok _ => catLoop line fuel x.src (out ++ encode (line (stripEol x.buf ++ ['\n'])))
    | _ => some (out, false)

/-- `main` of `examples/nfc-cat.rs:7-22`. -/
def nfcCat (U : Ucd) (fuel : Nat) (src : List BufEvent) : Option (Bytes × Bool) := catLoop (nfcLine U) fuel src []

/-- `main` of `examples/ssnfc-cat.rs:7-28`. -/
def ssnfcCat (U : Ucd) (fuel : Nat) (src : List BufEvent) : Option (Bytes × Bool) := catLoop (ssnfcLine U) fuel src []

/-! ## Specification -/

namespace Spec

/-- Every "\r\n" made "\n", and a newline added to a last line that has none. -/
def unixLines : List Char → List Char
  | [] => []
  | c :: r =>
    if c = '\r' ∧ r.head? = some '\n' then unixLines r
    else if r = [] ∧ c ≠ '\n' then [c, '\n']
    else c :: unixLines r

end Spec

/-! ## Theory -/

namespace Ucd
variable {U : Ucd}

/-- A quick check that says yes is right, for every state that can come before. -/
theorem quickNfcGo_yes (hU : U.Lawful) {s : List Char} : ∀ {last : Nat} {res : QC}, U.quickNfcGo last res s = .yes →
    ∀ (st : Option Char) (l : Option Nat), (∀ x, l = some x → x ≤ last) → Lc U st l s := by
  induction s with
  | nil => intro last res _ _ _ _; trivial
  | cons c s ih =>
    intro last res h
    simp only [quickNfcGo] at h
    have key : U.qc c = .yes → (U.ccc c = 0 ∨ last ≤ U.ccc c) →
        (∀ (st : Option Char) (l : Option Nat), (∀ x, l = some x → x ≤ U.ccc c) → Lc U st l s) →
        ∀ (st : Option Char) (l : Option Nat), (∀ x, l = some x → x ≤ last) → Lc U st l (c :: s) := by
      intro hq ho h3 st l hl
      obtain ⟨hr, hnc⟩ := hU.qc_yes c hq
      simp only [Lc]
      refine ⟨hr, ?_⟩
      split
      · exact ⟨fun x _ _ d ds hd => hnc d ds hd x, h3 _ _ (by simp)⟩
      · rename_i h0
        refine ⟨?_, ?_, h3 _ _ (by intro x hx; injection hx with hx; omega)⟩
        · intro x hx; have := hl x hx; omega
        · intro x _ _ d0 ds _ k _
          exact hnc c [] (hr.nonstarter hU h0) k
    split at h
    · rename_i ha
      have hA := hU.ascii c ha
      refine key hA.2.1 (Or.inl hA.1) ?_
      rw [hA.1]
      exact ih h
    · split at h
      · cases h
      · split at h
        · cases h
        · rename_i ha ho hq
          have hqy : U.qc c = .yes := by
            cases hqc : U.qc c with
            | yes => rfl
            | no => exact absurd hqc hq
            | maybe =>
              rw [if_pos hqc] at h
              exfalso
              have : ∀ (s : List Char) (a : Nat), U.quickNfcGo a .maybe s ≠ .yes := by
                intro s
                induction s with
                | nil => intro a; simp [quickNfcGo]
                | cons y ys ih =>
                  intro a
                  simp only [quickNfcGo]
                  split
                  · exact ih _
                  · split
                    · simp
                    · split
                      · simp
                      · simp only [ite_self]; exact ih _
              exact this _ _ h
          exact key hqy (by omega) (ih h)

end Ucd

open Ucd Spec
variable {U : Ucd}

theorem nfcLine_eq (hU : U.Lawful) (l : List Char) : nfcLine U l = U.nfc l := by
  unfold nfcLine
  split
  · rename_i h
    exact (nfc_of_lc hU (quickNfcGo_yes hU h none none (by simp))).symm
  · rfl

theorem ssnfcLine_eq (hU : U.Lawful) (l : List Char) : ssnfcLine U l = U.nfc (U.streamSafe 0 l) := by
  unfold ssnfcLine
  split
  · rename_i h
    obtain ⟨h1, -, h3⟩ := quickGo_yes hU h (by decide)
    rw [streamSafe_of_chk h1, nfc_of_lc hU (h3 none none (by simp))]
  · rfl

/-- The first line of the specification. -/
theorem unixLines_line : ∀ (l r : List Char), '\n' ∉ l → unixLines (l ++ '\n' :: r) = stripEol (l ++ ['\n']) ++ '\n' :: unixLines r := by
  have strip : ∀ l, stripEol (l ++ ['\n']) = if l.getLast? = some '\r' then l.dropLast else l := by
    intro l; simp [stripEol]
  intro l r
  rw [strip]
  induction l with
  | nil => intro _; simp [unixLines]
  | cons c l ih =>
    intro h
    simp only [List.mem_cons, not_or] at h
    have ih := ih h.2
    rw [List.cons_append, unixLines]
    cases l with
    | nil =>
      by_cases hc : c = '\r'
      · subst hc; simp [unixLines]
      · simp [hc, unixLines]
    | cons d l =>
      have hd : d ≠ '\n' := fun he => h.2 (by simp [he])
      rw [if_neg (by simp [hd]), if_neg (by simp), ih]
      have e : (c :: d :: l).getLast? = (d :: l).getLast? := by simp [List.getLast?_cons_cons]
      rw [e]
      split <;> simp

theorem unixLines_last : ∀ (l : List Char), '\n' ∉ l → l ≠ [] → unixLines l = l ++ ['\n'] := by
  intro l
  induction l with
  | nil => simp
  | cons c l ih =>
    intro h _
    simp only [List.mem_cons, not_or] at h
    rw [unixLines]
    cases l with
    | nil => simp [Ne.symm h.1]
    | cons d l =>
      have hd : d ≠ '\n' := fun he => h.2 (by simp [he])
      rw [if_neg (by simp [hd]), if_neg (by simp), ih h.2 (by simp)]; rfl

theorem stripEol_other {l : List Char} (h : '\n' ∉ l) : stripEol l = l := by
  unfold stripEol
  rw [if_neg]
  intro hc
  exact h (List.mem_of_getLast? hc)

theorem nl_of_encode (s : List Char) (hs : 10 ∈ encode s) : '\n' ∈ s := by
  obtain ⟨c, hc, h10⟩ := List.mem_flatMap.1 hs
  obtain ⟨b, r, e, hb, hr⟩ := encodeChar_head c
  rw [e] at h10
  simp only [List.mem_cons] at h10
  rcases h10 with rfl | h10
  · have : c = '\n' := by
      apply encodeChar_last
      have hd := decode1_encode c []
      rw [e] at hd
      simp only [List.cons_append, decode1] at hd
      rw [if_pos (by decide)] at hd
      simp at hd
      rw [e, hd.2]; rfl
    exact this ▸ hc
  · exact absurd (hr 10 h10) (by decide)

theorem encode_line (l r : List Char) : encode (l ++ '\n' :: r) = encode l ++ 10 :: encode r := by
  rw [encode_append, encode_cons]; rfl

theorem strip_no_nl {l : List Char} (h : '\n' ∉ l) : '\n' ∉ stripEol (l ++ ['\n']) := by
  have : stripEol (l ++ ['\n']) = if l.getLast? = some '\r' then l.dropLast else l := by simp [stripEol]
  rw [this]
  split
  · exact fun hc => h (List.dropLast_subset l hc)
  · exact h

/-- What follows a terminated line is not looked at. -/
theorem readUntil_app : ∀ (pre t : List BufEvent), Steady pre → 10 ∈ bytesOf pre →
    readUntil (pre ++ t) = ((readUntil pre).1, (readUntil pre).2.1, (readUntil pre).2.2 ++ t) := by
  intro pre t
  induction pre with
  | nil => intro _ h; simp [bytesOf] at h
  | cons e pre ih =>
    intro hs h
    have hs' : Steady pre := fun x hx => hs x (List.mem_cons_of_mem _ hx)
    cases e with
    | err => exact absurd rfl (hs _ (List.mem_cons_self)).1
    | interrupted => exact ih hs' (by simpa [bytesOf] using h)
    | data b =>
      rw [List.cons_append, readUntil, readUntil]
      by_cases hm : 10 ∈ b
      · rw [if_pos hm, if_pos hm]
        simp only
        split <;> simp
      · have h0 : ¬ b = [] := fun hc => (hs _ List.mem_cons_self).2 (by rw [hc])
        rw [if_neg hm, if_neg h0, if_neg hm, if_neg h0]
        have : 10 ∈ bytesOf pre := by
          have : 10 ∈ b ++ bytesOf pre := by simpa [bytesOf] using h
          exact (List.mem_append.1 this).resolve_left hm
        simp only [ih hs' this]

/-- The source fails before the line is terminated. -/
theorem readUntil_fails : ∀ (pre t : List BufEvent), Steady pre → 10 ∉ bytesOf pre →
    readUntil (pre ++ .err :: t) = (bytesOf pre, false, t) := by
  intro pre t
  induction pre with
  | nil => intro _ _; rfl
  | cons e pre ih =>
    intro hs h
    have hs' : Steady pre := fun x hx => hs x (List.mem_cons_of_mem _ hx)
    cases e with
    | err => exact absurd rfl (hs _ (List.mem_cons_self)).1
    | interrupted => exact ih hs' (by simpa [bytesOf] using h)
    | data b =>
      have h : 10 ∉ b ∧ 10 ∉ bytesOf pre := by
        have : 10 ∉ b ++ bytesOf pre := by simpa [bytesOf] using h
        simpa using this
      have h0 : ¬ b = [] := fun hc => (hs _ List.mem_cons_self).2 (by rw [hc])
      rw [List.cons_append, readUntil, if_neg h.1, if_neg h0]
      simp only [ih hs' h.2]
      simp [bytesOf]

/-- A conversion of whole texts that treats lines one by one, as `line` does. -/
structure Linewise (line conv : List Char → List Char) : Prop where
  nil : conv [] = []
  cons : ∀ l r, '\n' ∉ l → conv (l ++ '\n' :: r) = line (l ++ ['\n']) ++ conv r

theorem catLoop_line (line : List Char → List Char) {src src' : List BufEvent} {l : List Char} {fuel : Nat} {out : Bytes}
    (h : readUntil src = (encode l ++ [10], true, src')) :
    catLoop line (fuel + 1) src out = catLoop line fuel src' (out ++ encode (line (stripEol (l ++ ['\n']) ++ ['\n']))) := by
  have e : fromUtf8 (encode l ++ [10]) = some (l ++ ['\n']) := by
    rw [← encode_nl, ← encode_append, fromUtf8_encode]
  have hr : readLine [] src = { ret := .ok ((encode l).length + 1), buf := l ++ ['\n'], src := src' } := by
    simp [readLine, h, e]
  rw [catLoop]
  simp only [hr]

theorem catLoop_ok {line conv : List Char → List Char} (hc : Linewise line conv) : ∀ (fuel : Nat) (s : List Char) (src : List BufEvent) (out : Bytes),
    Steady src → bytesOf src = encode s → s.length < fuel →
    catLoop line fuel src out = some (out ++ encode (conv (unixLines s)), true) := by
  intro fuel
  induction fuel with
  | zero => intro s src out _ _ h; omega
  | succ fuel ih =>
    intro s src out hs hb hl
    by_cases hn : '\n' ∈ s
    · obtain ⟨l, r, rfl, hl'⟩ := List.eq_append_cons_of_mem hn
      rw [encode_line] at hb
      obtain ⟨src', h1, h2, h3⟩ := readUntil_line src (encode l) (encode r) hs hb (fun h => hl' (nl_of_encode _ h))
      rw [catLoop_line line h1, ih r src' _ h2 h3 (by simp at hl; omega), unixLines_line _ _ hl', hc.cons _ _ (strip_no_nl hl')]
      simp [encode_append]
    · have h1 := readUntil_rest src hs (by rw [hb]; exact fun h => hn (nl_of_encode _ h))
      rw [catLoop]
      simp only [readLine, h1, hb, fromUtf8_encode, List.nil_append, if_true]
      cases s with
      | nil => simp [encode_nil, unixLines, hc.nil]
      | cons c s =>
        have h0 : ∃ k, (encode (c :: s)).length = k + 1 := by
          have := length_le_encode (c :: s)
          exact ⟨(encode (c :: s)).length - 1, by simp at this ⊢; omega⟩
        obtain ⟨k, hk⟩ := h0
        rw [hk]
        simp only
        cases fuel with
        | zero => simp at hl
        | succ fuel =>
          have hend : catLoop line (fuel + 1) [] (out ++ encode (line (stripEol (c :: s) ++ ['\n']))) =
              some (out ++ encode (line (stripEol (c :: s) ++ ['\n'])), true) := rfl
          rw [hend, stripEol_other hn, unixLines_last _ hn (by simp), hc.cons _ _ hn, hc.nil, List.append_nil]

theorem catLoop_fails {line conv : List Char → List Char} (hc : Linewise line conv) (b : Bytes) (hb10 : 10 ∉ b) (t : List BufEvent) :
    ∀ (fuel : Nat) (s : List Char) (src : List BufEvent) (out : Bytes),
    Steady src → bytesOf src = encode s ++ b → (s = [] ∨ s.getLast? = some '\n') → s.length < fuel →
    catLoop line fuel (src ++ .err :: t) out = some (out ++ encode (conv (unixLines s)), false) := by
  intro fuel
  induction fuel with
  | zero => intro s src out _ _ _ h; omega
  | succ fuel ih =>
    intro s src out hs hb he hl
    rcases he with rfl | he
    · have h1 := readUntil_fails src t hs (by rw [hb]; exact hb10)
      rw [catLoop]
      simp only [readLine, h1]
      cases fromUtf8 (bytesOf src) <;> simp [unixLines, hc.nil, encode_nil]
    · obtain ⟨l, r, rfl, hl'⟩ := List.eq_append_cons_of_mem (List.mem_of_getLast? he)
      rw [encode_line, List.append_assoc, List.cons_append] at hb
      obtain ⟨src', h1, h2, h3⟩ := readUntil_line src (encode l) (encode r ++ b) hs hb (fun h => hl' (nl_of_encode _ h))
      have h4 := readUntil_app src (.err :: t) hs (by rw [hb]; simp)
      rw [h1] at h4
      have hr : r = [] ∨ r.getLast? = some '\n' := by
        cases r with
        | nil => exact Or.inl rfl
        | cons x r => exact Or.inr (by simpa [List.getLast?_append, List.getLast?_cons_cons] using he)
      rw [catLoop_line line h4, ih r src' _ h2 h3 hr (by simp at hl; omega), unixLines_line _ _ hl', hc.cons _ _ (strip_no_nl hl')]
      simp [encode_append]

theorem linewise_nfc (hU : U.Lawful) : Linewise (nfcLine U) U.nfc where
  nil := rfl
  cons l r _ := by
    rw [nfcLine_eq hU, nfc_split hU.inert_nl, nfc_split hU.inert_nl]
    simp [show U.nfc [] = [] from rfl]

theorem linewise_ssnfc (hU : U.Lawful) : Linewise (ssnfcLine U) (fun s => U.nfc (U.streamSafe 0 s)) where
  nil := rfl
  cons l r _ := by
    simp only [ssnfcLine_eq hU]
    rw [streamSafe_split hU hU.inert_nl (by decide), streamSafe_split hU hU.inert_nl (by decide), nfc_split hU.inert_nl, nfc_split hU.inert_nl]
    simp [show U.nfc [] = [] from rfl, show U.streamSafe 0 [] = [] from rfl]

end Verif
