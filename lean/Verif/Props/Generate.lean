import Verif.Props.Precise

/-!
# Generated substrings (C58, C78)
-/

namespace Verif
open Ucd Spec

/-- `<&TextSubstr as Arbitrary>::arbitrary` (`src/text_substring.rs:1214-1231`), and with the predicate of texts `<&TextStr as Arbitrary>::arbitrary`
(`src/text_string.rs:1393-1410`), on the remaining bytes `data` when `arbitrary_len` gives `size`: what is made, given as bytes, without check, and the
bytes that remain. `none` is a panic; `peek_bytes(size)` is nothing if `size` exceeds what there is. -/
def arbitraryWith (valid : List Char → Bool) (size : Nat) (data : Bytes) : Option (Bytes × Bytes) :=
  if size ≤ data.length then
    match fromTextBytes valid (data.take size) with
    | .ok t => some (encode t, data.drop size)
    | .err n => if n ≤ data.length then some (data.take n, data.drop n) else none
    | .panic => none
  else none

/-- `<&TextSubstr as Arbitrary>::arbitrary_take_rest` (`src/text_substring.rs:1233-1238`). -/
def arbitrarySubstrRest (U : Ucd) (b : Bytes) : Option Bytes :=
  match fromTextBytes (isBasicTextSubstr U) b with
  | .ok t => some (encode t)
  | _ => none

/-- For `TextStr` this is the function of C78. -/
theorem arbitraryWith_text (size : Nat) (data : Bytes) (h : size ≤ data.length) :
    (arbitraryWith (isBasicText ucd15) size data).map (·.1) = arbitraryText ucd15 (data.take size) := by
  unfold arbitraryWith arbitraryText
  rw [if_pos h]
  cases hb : fromTextBytes (isBasicText ucd15) (data.take size) with
  | ok t => rfl
  | panic => rfl
  | err n =>
    have hn : n ≤ size := by
      by_cases hs : ∃ s, data.take size = encode s
      · obtain ⟨s, hs⟩ := hs
        rw [hs] at hb
        obtain ⟨p, h1, -⟩ := c58_bytes_valid_up_to_partial s n hb
        unfold sliceTo at h1
        split at h1
        · rename_i hc
          obtain ⟨x, y, rfl, hn⟩ := isCharBoundary_iff.1 hc
          have : (encode (x ++ y)).length ≤ size := by rw [← hs, List.length_take]; omega
          rw [encode_append, List.length_append] at this
          omega
        · simp at h1
      · obtain ⟨p, r, e, h1, -, -⟩ := c51_malformed_position (isBasicText ucd15) (data.take size) fun s e => hs ⟨s, e⟩
        rw [hb] at h1
        injection h1 with h1
        have : (data.take size).length = (encode p).length + r.length := by rw [e, List.length_append]
        rw [List.length_take] at this
        omega
    simp only
    rw [if_pos (by omega), List.take_take, Nat.min_eq_left hn]
    rfl

/-- C58 for substrings, exactly: when `TextSubstr::from_text_bytes` fails on well-formed bytes, the bytes before the reported position are the longest valid
beginning; on others they are the well-formed part, valid or not. -/
theorem c58_substr_exact (b : Bytes) (n : Nat) (h : fromTextBytes (isBasicTextSubstr ucd15) b = .err n) :
    (∀ s, b = encode s → ∃ p q, s = p ++ q ∧ b.take n = encode p ∧
      ∀ p' q', s = p' ++ q' → (fromText (isBasicTextSubstr ucd15) p' = .ok p' ↔ p'.length ≤ p.length)) ∧
    ((∀ s, b ≠ encode s) → ∃ p, b.take n = encode p ∧ WellFormedPart b p) ∧ n ≤ b.length := by
  by_cases hs : ∃ s, b = encode s
  · obtain ⟨s, rfl⟩ := hs
    have h' := ((c51_bytes_errors (isBasicTextSubstr ucd15) (encode s) n).2.1 s rfl).1 h
    obtain ⟨p, q, rfl, h2, h3, h4⟩ := c08_valid_up_to_exact s (by rw [h']; simp)
    rw [h'] at h2
    injection h2 with h2
    subst h2
    refine ⟨fun t ht => ?_, fun hc => absurd rfl (hc _), by rw [encode_append, List.length_append]; omega⟩
    cases encode_injective ht
    refine ⟨p, q, rfl, by rw [encode_append, List.take_left], fun p' q' e => ?_⟩
    rw [← h4 p' q' e]
    exact ⟨fun hx => (fromText_ok_iff.1 hx).1, fromText_ok⟩
  · obtain ⟨p, r, e, h1, -, h2⟩ := c51_malformed_position (isBasicTextSubstr ucd15) b fun s e => hs ⟨s, e⟩
    rw [h1] at h
    injection h with h
    subst h
    refine ⟨fun s e' => absurd ⟨s, e'⟩ hs, fun _ => ⟨p, by rw [e, List.take_left], ⟨r, e⟩, fun q r' e' => ?_⟩,
      by rw [e, List.length_append]; omega⟩
    obtain ⟨t, rfl⟩ := h2 q r' e'
    exact List.prefix_append _ _

/-- C78 for substrings: `arbitrary` never panics, what it makes and what it leaves are together the bytes it was given, and what it makes is part of the
`size` bytes it looked at. -/
theorem c78_substr_total (size : Nat) (data : Bytes) (hz : size ≤ data.length) :
    ∃ x rest, arbitraryWith (isBasicTextSubstr ucd15) size data = some (x, rest) ∧ x ++ rest = data ∧ x <+: data.take size := by
  unfold arbitraryWith
  rw [if_pos hz]
  cases hb : fromTextBytes (isBasicTextSubstr ucd15) (data.take size) with
  | ok t =>
    obtain ⟨s', h1, h2⟩ := (c51_bytes_borrowed _ _ _).1 hb
    obtain ⟨-, rfl⟩ := fromText_ok_iff.1 h2
    refine ⟨_, _, rfl, ?_, ?_⟩
    · rw [← h1, List.take_append_drop]
    · rw [← h1]; exact List.prefix_refl _
  | err n =>
    obtain ⟨-, -, hn⟩ := c58_substr_exact _ _ hb
    rw [List.length_take] at hn
    refine ⟨_, _, by simp only; rw [if_pos (by omega)], List.take_append_drop _ _, ?_⟩
    exact List.take_prefix_take_left (by omega)
  | panic =>
    exfalso
    unfold fromTextBytes at hb
    split at hb
    · rename_i s _
      by_cases hs : fromText (isBasicTextSubstr ucd15) s = .ok s
      · rw [hs] at hb; simp at hb
      · obtain ⟨p, q, -, h1, -⟩ := c08_valid_up_to_exact s hs
        rw [h1] at hb; simp at hb
    · simp at hb

/-- C78 for substrings, exactly: the `TextSubstr` that `arbitrary` makes is valid if and only if the bytes are well-formed UTF-8 or the part of them that is
well-formed is a valid substring. -/
theorem c78_substr_exact (size : Nat) (data : Bytes) (hz : size ≤ data.length) :
    (∃ t rest, arbitraryWith (isBasicTextSubstr ucd15) size data = some (encode t, rest) ∧ fromText (isBasicTextSubstr ucd15) t = .ok t) ↔
    (∃ s, data.take size = encode s) ∨ ∃ p, WellFormedPart (data.take size) p ∧ fromText (isBasicTextSubstr ucd15) p = .ok p := by
  unfold arbitraryWith
  rw [if_pos hz]
  cases hb : fromTextBytes (isBasicTextSubstr ucd15) (data.take size) with
  | ok t =>
    obtain ⟨s', h1, h2⟩ := (c51_bytes_borrowed _ _ _).1 hb
    obtain ⟨-, rfl⟩ := fromText_ok_iff.1 h2
    exact ⟨fun _ => .inl ⟨_, h1⟩, fun _ => ⟨_, _, rfl, h2⟩⟩
  | err n =>
    obtain ⟨h1, h2, h3⟩ := c58_substr_exact _ _ hb
    rw [List.length_take] at h3
    have ht : data.take n = (data.take size).take n := by rw [List.take_take, Nat.min_eq_left (by omega)]
    simp only
    rw [if_pos (by omega)]
    by_cases hs : ∃ s, data.take size = encode s
    · obtain ⟨s, hs⟩ := hs
      obtain ⟨p, q, e1, e2, e3⟩ := h1 s hs
      exact ⟨fun _ => .inl ⟨s, hs⟩, fun _ => ⟨p, _, by rw [ht, e2], (e3 p q e1).2 (Nat.le_refl _)⟩⟩
    · obtain ⟨p, e1, e2⟩ := h2 fun s e => hs ⟨s, e⟩
      rw [ht, e1]
      constructor
      · rintro ⟨t, rest, h, hv⟩
        injection h with h
        injection h with h
        cases encode_injective h
        exact .inr ⟨p, e2, hv⟩
      · rintro (h | ⟨q, hq, hv⟩)
        · exact absurd h hs
        · cases wellFormedPart_unique e2 hq
          exact ⟨p, _, rfl, hv⟩
  | panic =>
    obtain ⟨x, rest, h, -⟩ := c78_substr_total size data hz
    unfold arbitraryWith at h
    rw [if_pos hz, hb] at h
    simp at h

/-- C78 for substrings: `arbitrary_take_rest` makes only valid substrings, from any bytes. -/
theorem c78_substr_rest (b x : Bytes) : arbitrarySubstrRest ucd15 b = some x ↔ x = b ∧ ∃ t, b = encode t ∧ fromText (isBasicTextSubstr ucd15) t = .ok t := by
  unfold arbitrarySubstrRest
  constructor
  · intro h
    cases hb : fromTextBytes (isBasicTextSubstr ucd15) b with
    | ok t =>
      rw [hb] at h
      cases h
      obtain ⟨s', h1, h2⟩ := (c51_bytes_borrowed _ _ _).1 hb
      obtain ⟨hv, rfl⟩ := fromText_ok_iff.1 h2
      exact ⟨h1.symm, _, h1, h2⟩
    | err n => rw [hb] at h; simp at h
    | panic => rw [hb] at h; simp at h
  · rintro ⟨rfl, t, rfl, h⟩
    rw [(c51_bytes_borrowed _ _ _).2 ⟨t, rfl, h⟩]

/-- A mark may begin a substring, a control may not; and bytes that are no UTF-8 leave the control in. -/
example : arbitraryWith (isBasicTextSubstr ucd15) 4 (encode ['́', '\x00', 'b', 'c']) = some (encode ['́'], encode ['\x00', 'b', 'c']) ∧
    arbitraryWith (isBasicTextSubstr ucd15) 2 [0x00, 0xff, 0x61] = some (encode ['\x00'], [0xff, 0x61]) ∧
    arbitraryWith (isBasicText ucd15) 4 (encode ['́', '\x00', 'b', 'c']) = some ([], encode ['́', '\x00', 'b', 'c']) ∧
    arbitrarySubstrRest ucd15 (encode ['́']) = some (encode ['́']) := by decide +kernel

end Verif
