import Verif.Props.Lines
import Verif.Props.Pieces

/-!
# Exact forms for errors and substrings (C43, C53, C58, C78)
-/

namespace Verif
open Ucd Spec

/-! ## C58, C78 -/

/-- The bytes begin with the encoding of `p`, and with that of no longer string. -/
def Spec.WellFormedPart (b : Bytes) (p : List Char) : Prop :=
  (∃ r, b = encode p ++ r) ∧ ∀ q r, b = encode q ++ r → q <+: p

theorem wellFormedPart_unique {b : Bytes} {p q : List Char} (hp : WellFormedPart b p) (hq : WellFormedPart b q) : p = q := by
  obtain ⟨⟨r, e⟩, h⟩ := hp
  obtain ⟨⟨r', e'⟩, h'⟩ := hq
  exact (h' _ _ e).eq_of_length_le (h _ _ e').length_le

/-- C58, exactly: when `TextStr::from_text_bytes` fails, the bytes before the reported position are Basic Text if and only if the bytes
are well-formed UTF-8 or the part of them that is well-formed is Basic Text. -/
theorem c58_exact (b : Bytes) (n : Nat) (h : fromTextBytes (isBasicText ucd15) b = .err n) :
    (∃ t, b.take n = encode t ∧ fromText (isBasicText ucd15) t = .ok t) ↔
      (∃ s, b = encode s) ∨ ∃ p, WellFormedPart b p ∧ fromText (isBasicText ucd15) p = .ok p := by
  by_cases hs : ∃ s, b = encode s
  · obtain ⟨s, rfl⟩ := hs
    obtain ⟨t, h1, h2, -⟩ := c78_arbitrary_partial s
    unfold arbitraryText at h1
    rw [h] at h1
    injection h1 with h1
    exact ⟨fun _ => .inl ⟨s, rfl⟩, fun _ => ⟨t, h1, h2⟩⟩
  · obtain ⟨p, r, e, h1, -, h2⟩ := c51_malformed_position (isBasicText ucd15) b fun s e => hs ⟨s, e⟩
    rw [h1] at h
    injection h with h
    subst h
    have ht : b.take (encode p).length = encode p := by rw [e, List.take_left]
    have hw : WellFormedPart b p := ⟨⟨r, e⟩, fun q r' e' => by obtain ⟨t, rfl⟩ := h2 q r' e'; exact List.prefix_append _ _⟩
    rw [ht]
    constructor
    · rintro ⟨t, e1, e2⟩
      cases encode_injective e1
      exact .inr ⟨p, hw, e2⟩
    · rintro (h | ⟨q, hq, e2⟩)
      · exact absurd h hs
      · cases wellFormedPart_unique hw hq
        exact ⟨p, rfl, e2⟩

example : fromTextBytes (isBasicText ucd15) [0x61, 0xff] = .err 1 ∧ WellFormedPart [0x61, 0xff] ['a'] := by
  obtain ⟨p, r, e, h1, -, h2⟩ := c51_malformed_position (isBasicText ucd15) [0x61, 0xff]
    (fun s e => by have h := fromUtf8_iff.2 e; have : fromUtf8 [0x61, 0xff] = none := by decide +kernel
                   rw [this] at h; simp at h)
  have hx : fromTextBytes (isBasicText ucd15) [0x61, 0xff] = .err 1 := by decide +kernel
  refine ⟨hx, ⟨[0xff], by decide +kernel⟩, fun q r' e' => ?_⟩
  obtain ⟨t, rfl⟩ := h2 q r' e'
  obtain ⟨t', e3⟩ := h2 ['a'] [0xff] (by decide +kernel)
  rw [hx] at h1
  injection h1 with h1
  rw [e3, List.singleton_append, encode_cons, List.length_append] at h1
  have h4 : (encodeChar 'a').length = 1 := by decide +kernel
  have : encode t' = [] := List.length_eq_zero_iff.1 (by omega)
  have : t' = [] := encode_injective this
  subst this
  rw [← List.append_nil ['a'], ← e3]
  exact List.prefix_append _ _

/-- C78, exactly: the `TextStr` that `arbitrary` makes is Basic Text if and only if the bytes are well-formed UTF-8 or the part of them that
is well-formed is Basic Text. -/
theorem c78_exact (b : Bytes) : (∃ t, arbitraryText ucd15 b = some (encode t) ∧ fromText (isBasicText ucd15) t = .ok t) ↔
    (∃ s, b = encode s) ∨ ∃ p, WellFormedPart b p ∧ fromText (isBasicText ucd15) p = .ok p := by
  by_cases hs : ∃ s, b = encode s
  · obtain ⟨s, rfl⟩ := hs
    obtain ⟨t, h1, h2, -⟩ := c78_arbitrary_partial s
    exact ⟨fun _ => .inl ⟨s, rfl⟩, fun _ => ⟨t, h1, h2⟩⟩
  · obtain ⟨p, r, e, h1, -, -⟩ := c51_malformed_position (isBasicText ucd15) b fun s e => hs ⟨s, e⟩
    rw [← c58_exact b _ h1]
    unfold arbitraryText
    rw [h1]
    simp

example : arbitraryText ucd15 [0x61, 0xff] = some (encode ['a']) ∧ arbitraryText ucd15 [0x00, 0xff] = some (encode ['\x00']) := by decide +kernel

/-! ## C53 -/

/-- C53, exactly, for all strings: `TextSubstring::from_text` accepts what `TextString::from_text` accepts, and makes the same of it. -/
theorem c53_accepts_iff (s t : List Char) :
    fromTextOwned ucd15 (isBasicTextSubstr ucd15) s = .ok t ↔ fromTextOwned ucd15 (isBasicText ucd15) s = .ok t := by
  rw [owned_ok_iff isBasicTextSubstr_nil, owned_ok_iff isBasicText_nil]

example : fromTextOwned ucd15 (isBasicTextSubstr ucd15) ['e', '\u0301'] = .ok ['\u00e9'] ∧
    fromTextOwned ucd15 (isBasicTextSubstr ucd15) ['\u0301', 'e'] = .err 2 := by decide +kernel

/-! ## C43 -/

/-- C43, exactly: after `read_text_line` the caller's `TextString` is Basic Text if and only if the source did not fail, or what came before
it failed is not UTF-8 (then the buffer is as before), or is Basic Text together with what was there before. -/
theorem c43_valid_iff (buf : List Char) (hb : fromText (isBasicText ucd15) buf = .ok buf) (src : List BufEvent) :
    fromText (isBasicText ucd15) (readTextLine ucd15 buf src).buf = .ok (readTextLine ucd15 buf src).buf ↔
      ((readTextLine ucd15 buf src).ret = .ioError → ∀ s, (readUntil src).1 = encode s →
        fromText (isBasicText ucd15) (buf ++ s) = .ok (buf ++ s)) := by
  by_cases h : (readTextLine ucd15 buf src).ret = .ioError
  · cases hf : fromUtf8 (readUntil src).1 with
    | none =>
      have hn : (readTextLine ucd15 buf src).buf = buf := by
        unfold readTextLine readLine at h ⊢
        simp only [hf] at h ⊢
        cases hr : (readUntil src).2.1 <;> simp
      rw [hn]
      refine ⟨fun _ _ s e => ?_, fun _ => hb⟩
      rw [fromUtf8_iff.2 e] at hf; simp at hf
    | some s =>
      have hn : (readTextLine ucd15 buf src).buf = buf ++ s := by
        unfold readTextLine readLine at h ⊢
        simp only [hf] at h ⊢
        cases hr : (readUntil src).2.1 with
        | false => simp
        | true =>
          simp only [hr, if_true] at h
          split at h <;> simp at h
      have he := fromUtf8_iff.1 hf
      rw [hn]
      constructor
      · intro h1 _ s' e
        cases encode_injective (he.symm.trans e)
        exact h1
      · intro h1; exact h1 h s he
  · exact ⟨fun _ h' => absurd h' h, fun _ => (c43_err_valid_partial buf hb src h).1⟩

example : (readTextLine ucd15 ['a'] [.data [0x62, 0x63], .err]).ret = .ioError ∧
    (readTextLine ucd15 ['a'] [.data [0x62, 0x63], .err]).buf = ['a', 'b', 'c'] ∧
    (readTextLine ucd15 ['a'] [.data [27, 91], .err]).buf = ['a', ESC, '['] := by decide +kernel

end Verif
