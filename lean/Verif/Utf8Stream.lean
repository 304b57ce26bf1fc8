import Verif.Utf8Lossy

/-!
# Decoding a stream of bytes

`TextReader` reads strings from a `Utf8Reader` (`src/text_reader.rs:24-36`, `utf8_io` crate), which decodes the bytes of its own source
as they come: bytes at the end of a read that may be the beginning of a scalar are kept for the next read.  Simplification: how much a
`Utf8Reader` delivers in one read is not modelled exactly (its buffer is); here each read of bytes makes one delivery.
-/

namespace Verif
open Spec

/-- `Utf8Error::error_len().is_none()` for bytes that begin with an ill-formed sequence: they are the beginning of a sequence. -/
def incomplete : Bytes → Bool
  | [a] => 0xc2 ≤ a.toNat && a.toNat ≤ 0xf4
  | [a, b] => secondOk a b
  | [a, b, c] => secondOk a b && (0xf0 ≤ a.toNat && (cont c).isSome)
  | _ => false

def feedBytesGo : Nat → Bytes → List Char × Bytes
  | 0, b => ([], b)
  | n + 1, b =>
    match decode1 b with
    | some (c, r) => (c :: (feedBytesGo n r).1, (feedBytesGo n r).2)
    | none =>
      if b = [] then ([], [])
      else if incomplete b then ([], b)
      else ('�' :: (feedBytesGo n (b.drop (badLen b))).1, (feedBytesGo n (b.drop (badLen b))).2)

/-- One read of a `Utf8Reader` that is not the last: what it delivers, and the bytes it keeps (its overflow buffer). -/
def feedBytes (b : Bytes) : List Char × Bytes := feedBytesGo b.length b

/-- The reads of a `Utf8Reader` whose source delivers `chunks` and then `last` with the end; `kept` is its overflow buffer. -/
def decodeReads (kept : Bytes) : List Bytes → Bytes → List (List Char) × List Char
  | [], last => ([], utf8Lossy (kept ++ last))
  | b :: bs, last => ((feedBytes (kept ++ b)).1 :: (decodeReads (feedBytes (kept ++ b)).2 bs last).1, (decodeReads (feedBytes (kept ++ b)).2 bs last).2)

/-! ## Theory -/

theorem encode_first (c : Char) {a b : UInt8} {r : Bytes} (h : encodeChar c = a :: b :: r) : 0xc2 ≤ a.toNat ∧ a.toNat ≤ 0xf4 := by
  have hr := char_range c
  simp only [encodeChar] at h
  split at h
  · simp at h
  · split at h
    · simp only [List.cons.injEq] at h
      obtain ⟨rfl, -⟩ := h
      rw [u8 (by omega)]; omega
    · split at h
      · simp only [List.cons.injEq] at h
        obtain ⟨rfl, -⟩ := h
        rw [u8 (by omega)]; omega
      · simp only [List.cons.injEq] at h
        obtain ⟨rfl, -⟩ := h
        rw [u8 (by omega)]; omega

/-- The beginning of a sequence, up to all but its last byte. -/
theorem incomplete_of {c : Char} {b q : Bytes} (h : encodeChar c = b ++ q) (hb : b ≠ []) (hq : q ≠ []) : incomplete b = true := by
  have hl := utf8Len_le c
  rw [← encodeChar_length, h, List.length_append] at hl
  have hq' := List.length_pos_iff.2 hq
  match b, q, hb, hq, h with
  | [a], x :: q, _, _, h =>
    have := encode_first c h
    simp [incomplete, this]
  | [a, b], x :: q, _, _, h =>
    have := encode_second c h
    simp [incomplete, this.1]
  | [a, b, d], x :: q, _, _, h =>
    have := encode_second c h
    have h2 := this.2 (by simp)
    simp only [incomplete, this.1, h2.2, Bool.true_and, Bool.and_true, decide_eq_true_eq]
    omega
  | a :: b :: d :: e :: b', x :: q, _, _, h => simp at hl; omega

theorem decode1_more {b r x : Bytes} {c : Char} (h : decode1 b = some (c, r)) : decode1 (b ++ x) = some (c, r ++ x) := by
  rw [decode1_some h, List.append_assoc, decode1_encode]

theorem decode1_none_more {b x : Bytes} (h : decode1 b = none) (hb : b ≠ []) (hi : incomplete b = false) : decode1 (b ++ x) = none := by
  cases hd : decode1 (b ++ x) with
  | none => rfl
  | some p =>
    obtain ⟨c, r⟩ := p
    have he := decode1_some hd
    rcases List.append_eq_append_iff.1 he with ⟨q, h1, h2⟩ | ⟨q, h1, h2⟩
    · by_cases hq : q = []
      · subst hq
        rw [List.append_nil] at h1
        have := decode1_encode c []
        rw [List.append_nil, h1, h] at this
        simp at this
      · rw [incomplete_of h1 hb hq] at hi
        simp at hi
    · rw [h1, decode1_encode] at h
      simp at h

theorem badLen_more {b x : Bytes} (h : decode1 b = none) (hb : b ≠ []) (hi : incomplete b = false) : badLen (b ++ x) = badLen b := by
  have hs : ∀ {a y : UInt8}, secondOk a y = true → 0xc2 ≤ a.toNat ∧ a.toNat ≤ 0xf4 := fun h => by have := secondOk_cont h; omega
  match b, x with
  | [], _ => exact absurd rfl hb
  | _, [] => rw [List.append_nil]
  | [a], [y] =>
    simp only [List.cons_append, List.nil_append, badLen]
    rw [if_neg (fun h2 => by have := hs h2; simp [incomplete] at hi; omega)]
  | [a], y :: z :: x =>
    simp only [List.cons_append, List.nil_append, badLen]
    rw [if_neg (fun h2 => by have := hs h2; simp [incomplete] at hi; omega)]
  | [a, b], y :: x =>
    simp only [incomplete] at hi
    simp [badLen, hi]
  | a :: b :: d :: r, y :: x => rfl

theorem feedBytesGo_append : ∀ (n : Nat) (b x : Bytes), b.length ≤ n →
    utf8Lossy (b ++ x) = (feedBytesGo n b).1 ++ utf8Lossy ((feedBytesGo n b).2 ++ x) := by
  intro n
  induction n with
  | zero => intro b x _; rfl
  | succ n ih =>
    intro b x hl
    simp only [feedBytesGo]
    cases hd : decode1 b with
    | some p =>
      obtain ⟨c, r⟩ := p
      have := decode1_shorter hd
      simp only
      rw [utf8Lossy_good (decode1_more hd), ih r x (by omega)]
      rfl
    | none =>
      simp only
      by_cases hb : b = []
      · subst hb; simp
      · rw [if_neg hb]
        cases hi : incomplete b with
        | true => simp
        | false =>
          have h1 := badLen_pos hb
          have h2 := badLen_le b
          rw [if_neg (by simp)]
          rw [utf8Lossy_bad (decode1_none_more hd hb hi) (by simp [hb]), badLen_more hd hb hi, List.drop_append_of_le_length h2,
            ih _ x (by rw [List.length_drop]; omega)]
          rfl

/-- What is kept is decoded later: nothing is lost or repeated. -/
theorem feedBytes_append (b x : Bytes) : utf8Lossy (b ++ x) = (feedBytes b).1 ++ utf8Lossy ((feedBytes b).2 ++ x) := feedBytesGo_append _ b x (Nat.le_refl _)

/-- All reads together deliver the lossy decoding of all bytes. -/
theorem decodeReads_flatten : ∀ (bs : List Bytes) (kept last : Bytes),
    (decodeReads kept bs last).1.flatten ++ (decodeReads kept bs last).2 = utf8Lossy (kept ++ bs.flatten ++ last) := by
  intro bs
  induction bs with
  | nil => intro kept last; simp [decodeReads]
  | cons b bs ih =>
    intro kept last
    simp only [decodeReads, List.flatten_cons, List.append_assoc]
    rw [ih, ← List.append_assoc kept, feedBytes_append (kept ++ b) (bs.flatten ++ last), List.append_assoc]

theorem incomplete_length {b : Bytes} (h : incomplete b = true) : b.length ≤ 3 := by
  match b, h with
  | [_], _ => simp
  | [_, _], _ => simp
  | [_, _, _], _ => simp

/-- The overflow buffer never holds more than three bytes. -/
theorem feedBytesGo_kept : ∀ (n : Nat) (b : Bytes), b.length ≤ n → (feedBytesGo n b).2.length ≤ 3 := by
  intro n
  induction n with
  | zero => intro b h; simp only [feedBytesGo]; omega
  | succ n ih =>
    intro b hl
    simp only [feedBytesGo]
    cases hd : decode1 b with
    | some p =>
      obtain ⟨c, r⟩ := p
      have := decode1_shorter hd
      exact ih r (by omega)
    | none =>
      simp only
      by_cases hb : b = []
      · subst hb; simp
      · rw [if_neg hb]
        have h1 := badLen_pos hb
        split
        · rename_i hi; exact incomplete_length hi
        · exact ih _ (by rw [List.length_drop]; omega)

theorem feedBytes_kept (b : Bytes) : (feedBytes b).2.length ≤ 3 := feedBytesGo_kept _ b (Nat.le_refl _)

/-- Well-formed bytes cut anywhere: the first read delivers the scalars that are complete. -/
theorem feedBytes_encode {s : List Char} {b x : Bytes} (h : encode s = b ++ x) : ∃ t, s = (feedBytes b).1 ++ t ∧ (feedBytes b).2 ++ x = encode t := by
  have key : ∀ (n : Nat) (s : List Char) (b : Bytes), b.length ≤ n → encode s = b ++ x →
      ∃ t, s = (feedBytesGo n b).1 ++ t ∧ (feedBytesGo n b).2 ++ x = encode t := by
    intro n
    induction n with
    | zero => intro s b _ h; exact ⟨s, rfl, h.symm⟩
    | succ n ih =>
      intro s b hl h
      simp only [feedBytesGo]
      cases hd : decode1 b with
      | some p =>
        obtain ⟨c, r⟩ := p
        have hs := decode1_shorter hd
        cases s with
        | nil =>
          rw [encode_nil, eq_comm, List.append_eq_nil_iff] at h
          rw [h.1] at hd; simp [decode1] at hd
        | cons d s =>
          have e := decode1_more (x := x) hd
          rw [← h, encode_cons, decode1_encode] at e
          simp at e
          obtain ⟨rfl, e⟩ := e
          obtain ⟨t, h1, h2⟩ := ih s r (by omega) e
          exact ⟨t, by rw [h1]; simp [← h1], h2⟩
      | none =>
        simp only
        by_cases hb : b = []
        · subst hb; exact ⟨s, rfl, h.symm⟩
        · rw [if_neg hb]
          cases s with
          | nil =>
            rw [encode_nil, eq_comm, List.append_eq_nil_iff] at h
            exact absurd h.1 hb
          | cons d s =>
            have e := decode1_encode d (encode s)
            rw [← encode_cons, h] at e
            cases hi : incomplete b with
            | true => exact ⟨d :: s, by simp, by simp [h]⟩
            | false => rw [decode1_none_more hd hb hi] at e; simp at e
  exact key _ s b (Nat.le_refl _) h

end Verif
