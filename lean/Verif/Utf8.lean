/-!
# UTF-8

Model of `char::encode_utf8`, `char::len_utf8`, `str::is_char_boundary` and `str::from_utf8` of the Rust
standard library, which `/repo` uses for every byte-level interface.
-/

namespace Verif

abbrev Bytes := List UInt8

/-- `char::encode_utf8`. -/
def encodeChar (c : Char) : Bytes :=
  let n := c.toNat
  if n < 0x80 then [UInt8.ofNat n]
  else if n < 0x800 then [UInt8.ofNat (0xc0 + n / 64), UInt8.ofNat (0x80 + n % 64)]
  else if n < 0x10000 then
    [UInt8.ofNat (0xe0 + n / 4096), UInt8.ofNat (0x80 + n / 64 % 64), UInt8.ofNat (0x80 + n % 64)]
  else
    [UInt8.ofNat (0xf0 + n / 262144), UInt8.ofNat (0x80 + n / 4096 % 64), UInt8.ofNat (0x80 + n / 64 % 64),
      UInt8.ofNat (0x80 + n % 64)]

/-- The bytes of a `str`. -/
def encode (s : List Char) : Bytes := s.flatMap encodeChar

/-- `char::len_utf8`. -/
def utf8Len (c : Char) : Nat :=
  if c.toNat < 0x80 then 1 else if c.toNat < 0x800 then 2 else if c.toNat < 0x10000 then 3 else 4

/-- A continuation byte's payload. -/
def cont (b : UInt8) : Option Nat :=
  if 0x80 ≤ b.toNat ∧ b.toNat < 0xc0 then some (b.toNat - 0x80) else none

/-- One well-formed sequence at the front (Unicode, table 3-7), as accepted by `str::from_utf8`. -/
def decode1 : Bytes → Option (Char × Bytes)
  | [] => none
  | b0 :: r =>
    if b0.toNat < 0x80 then some (Char.ofNat b0.toNat, r)
    else if b0.toNat < 0xc0 then none
    else if b0.toNat < 0xe0 then
      match r with
      | b1 :: r =>
        match cont b1 with
        | some c1 =>
          let v := (b0.toNat - 0xc0) * 64 + c1
          if 0x80 ≤ v then some (Char.ofNat v, r) else none
        | none => none
      | _ => none
    else if b0.toNat < 0xf0 then
      match r with
      | b1 :: b2 :: r =>
        match cont b1, cont b2 with
        | some c1, some c2 =>
          let v := (b0.toNat - 0xe0) * 4096 + c1 * 64 + c2
          if 0x800 ≤ v ∧ ¬(0xd800 ≤ v ∧ v < 0xe000) then some (Char.ofNat v, r) else none
        | _, _ => none
      | _ => none
    else if b0.toNat < 0xf8 then
      match r with
      | b1 :: b2 :: b3 :: r =>
        match cont b1, cont b2, cont b3 with
        | some c1, some c2, some c3 =>
          let v := (b0.toNat - 0xf0) * 262144 + c1 * 4096 + c2 * 64 + c3
          if 0x10000 ≤ v ∧ v < 0x110000 then some (Char.ofNat v, r) else none
        | _, _, _ => none
      | _ => none
    else none

/-- The longest well-formed prefix and the rest; `fuel` bounds the number of scalars. -/
def decodeGo : Nat → Bytes → List Char × Bytes
  | 0, b => ([], b)
  | n + 1, b =>
    match decode1 b with
    | none => ([], b)
    | some (c, r) => let (s, r') := decodeGo n r; (c :: s, r')

/-- What `str::from_utf8` finds: the scalars of `buf[..valid_up_to]` and the bytes from there on. -/
def decodePrefix (b : Bytes) : List Char × Bytes := decodeGo b.length b

/-- `str::from_utf8`: `none` is `Err`. -/
def fromUtf8 (b : Bytes) : Option (List Char) := if (decodePrefix b).2 = [] then some (decodePrefix b).1 else none

/-- `is_char_boundary` of a byte (`src/text_input.rs:556-558`): `b as i8 >= -0x40`. -/
def isBoundaryByte (b : UInt8) : Bool := !(0x80 ≤ b.toNat && b.toNat < 0xc0)

/-- `str::is_char_boundary`: offset 0, the length, or the start of a scalar. -/
def isCharBoundary (s : List Char) (k : Nat) : Bool :=
  k == 0 || k == (encode s).length || match (encode s)[k]? with | some b => isBoundaryByte b | none => false

/-! ## Theory -/

theorem encode_nil : encode [] = [] := rfl
theorem encode_cons (c : Char) (s : List Char) : encode (c :: s) = encodeChar c ++ encode s := rfl
theorem encode_append (a b : List Char) : encode (a ++ b) = encode a ++ encode b := by simp [encode]

theorem encodeChar_length (c : Char) : (encodeChar c).length = utf8Len c := by
  simp only [encodeChar, utf8Len]; (repeat' split) <;> rfl

theorem utf8Len_pos (c : Char) : 1 ≤ utf8Len c := by simp only [utf8Len]; (repeat' split) <;> omega
theorem utf8Len_le (c : Char) : utf8Len c ≤ 4 := by simp only [utf8Len]; (repeat' split) <;> omega

theorem char_range (c : Char) : c.toNat < 0xd800 ∨ (0xdfff < c.toNat ∧ c.toNat < 0x110000) := c.valid

theorem ofNat_toNat' (c : Char) {n : Nat} (h : n = c.toNat) : Char.ofNat n = c := by rw [h]; exact Char.ofNat_toNat c

theorem u8 {n : Nat} (h : n < 256) : (UInt8.ofNat n).toNat = n := by
  simp [UInt8.toNat_ofNat', Nat.mod_eq_of_lt h]

theorem cont_ofNat {n : Nat} (h : n < 64) : cont (UInt8.ofNat (0x80 + n)) = some n := by
  unfold cont
  rw [u8 (by omega), if_pos (by omega), Nat.add_sub_cancel_left]

theorem decode1_encode (c : Char) (r : Bytes) : decode1 (encodeChar c ++ r) = some (c, r) := by
  have hr := char_range c
  unfold encodeChar
  simp only
  split
  · rename_i h
    simp only [List.cons_append, List.nil_append, decode1]
    rw [u8 (by omega), if_pos h, Char.ofNat_toNat]
  · split
    · simp only [List.cons_append, List.nil_append, decode1]
      rw [u8 (by omega), if_neg (by omega), if_neg (by omega), if_pos (by omega), cont_ofNat (by omega)]
      simp only
      rw [if_pos (by omega), ofNat_toNat' c (by omega)]
    · split
      · simp only [List.cons_append, List.nil_append, decode1]
        rw [u8 (by omega), if_neg (by omega), if_neg (by omega), if_neg (by omega), if_pos (by omega), cont_ofNat (by omega),
          cont_ofNat (by omega)]
        simp only
        rw [if_pos (by omega), ofNat_toNat' c (by omega)]
      · simp only [List.cons_append, List.nil_append, decode1]
        rw [u8 (by omega), if_neg (by omega), if_neg (by omega), if_neg (by omega), if_neg (by omega), if_pos (by omega),
          cont_ofNat (by omega), cont_ofNat (by omega), cont_ofNat (by omega)]
        simp only
        rw [if_pos (by omega), ofNat_toNat' c (by omega)]

theorem cont_some {b : UInt8} {n : Nat} (h : cont b = some n) : n < 64 ∧ b = UInt8.ofNat (0x80 + n) := by
  unfold cont at h
  split at h
  · rename_i hb
    injection h with h
    refine ⟨by omega, ?_⟩
    rw [show 0x80 + n = b.toNat by omega]
    exact UInt8.ofNat_toNat.symm
  · simp at h

theorem toNat_ofNat_valid {n : Nat} (h : n < 0xd800 ∨ (0xdfff < n ∧ n < 0x110000)) : (Char.ofNat n).toNat = n := by
  have h' : n.isValidChar := h
  simp [Char.ofNat, h', Char.toNat, Char.ofNatAux]

theorem ofNat8 {b : UInt8} {n : Nat} (h : n = b.toNat) : UInt8.ofNat n = b := by rw [h]; exact UInt8.ofNat_toNat

theorem decode1_some {b r : Bytes} {c : Char} (h : decode1 b = some (c, r)) : b = encodeChar c ++ r := by
  cases b with
  | nil => simp [decode1] at h
  | cons b0 t =>
    simp only [decode1] at h
    have hb0 := b0.toNat_lt
    split at h
    · rename_i h0
      simp only [Option.some.injEq, Prod.mk.injEq] at h
      rw [← h.1, ← h.2]
      unfold encodeChar
      simp only
      rw [toNat_ofNat_valid (by omega), if_pos h0, ofNat8 rfl]; rfl
    · split at h
      · simp at h
      · split at h
        · match t, h with
          | b1 :: t, h =>
            simp only at h
            cases h1 : cont b1 with
            | none => simp [h1] at h
            | some c1 =>
              have := cont_some h1
              rw [h1] at h
              simp only at h
              split at h
              · simp only [Option.some.injEq, Prod.mk.injEq] at h
                rw [← h.1, ← h.2]
                unfold encodeChar
                simp only
                rw [toNat_ofNat_valid (by omega), if_neg (by omega), if_pos (by omega), ofNat8 (b := b0) (by omega),
                  ofNat8 (b := b1) (by rw [this.2, u8 (by omega)]; omega)]
                rfl
              · simp at h
          | [], h => simp at h
        · split at h
          · match t, h with
            | b1 :: b2 :: t, h =>
              simp only at h
              cases h1 : cont b1 with
              | none => simp [h1] at h
              | some c1 =>
                cases h2 : cont b2 with
                | none => simp [h1, h2] at h
                | some c2 =>
                  have e1 := cont_some h1
                  have e2 := cont_some h2
                  rw [h1, h2] at h
                  simp only at h
                  split at h
                  · simp only [Option.some.injEq, Prod.mk.injEq] at h
                    rw [← h.1, ← h.2]
                    unfold encodeChar
                    simp only
                    rw [toNat_ofNat_valid (by omega), if_neg (by omega), if_neg (by omega), if_pos (by omega),
                      ofNat8 (b := b0) (by omega),
                      ofNat8 (b := b1) (by rw [e1.2, u8 (by omega)]; omega),
                      ofNat8 (b := b2) (by rw [e2.2, u8 (by omega)]; omega)]
                    rfl
                  · simp at h
            | [], h => simp at h
            | [_], h => simp at h
          · split at h
            · match t, h with
              | b1 :: b2 :: b3 :: t, h =>
                simp only at h
                cases h1 : cont b1 with
                | none => simp [h1] at h
                | some c1 =>
                  cases h2 : cont b2 with
                  | none => simp [h1, h2] at h
                  | some c2 =>
                    cases h3 : cont b3 with
                    | none => simp [h1, h2, h3] at h
                    | some c3 =>
                      have e1 := cont_some h1
                      have e2 := cont_some h2
                      have e3 := cont_some h3
                      rw [h1, h2, h3] at h
                      simp only at h
                      split at h
                      · simp only [Option.some.injEq, Prod.mk.injEq] at h
                        rw [← h.1, ← h.2]
                        unfold encodeChar
                        simp only
                        rw [toNat_ofNat_valid (by omega), if_neg (by omega), if_neg (by omega), if_neg (by omega),
                          ofNat8 (b := b0) (by omega),
                          ofNat8 (b := b1) (by rw [e1.2, u8 (by omega)]; omega),
                          ofNat8 (b := b2) (by rw [e2.2, u8 (by omega)]; omega),
                          ofNat8 (b := b3) (by rw [e3.2, u8 (by omega)]; omega)]
                        rfl
                      · simp at h
              | [], h => simp at h
              | [_], h => simp at h
              | [_, _], h => simp at h
            · simp at h

theorem encodeChar_ne_nil (c : Char) : encodeChar c ≠ [] := by
  intro h
  have := encodeChar_length c
  have := utf8Len_pos c
  rw [h] at *
  simp only [List.length_nil] at *
  omega

theorem decode1_nil : decode1 [] = none := rfl

/-- `decodeGo` splits its input into the encoding of what it found and the rest. -/
theorem decodeGo_spec : ∀ (n : Nat) (b : Bytes), encode (decodeGo n b).1 ++ (decodeGo n b).2 = b ∧
    (b.length ≤ n → decode1 (decodeGo n b).2 = none) := by
  intro n
  induction n with
  | zero =>
    intro b
    refine ⟨rfl, ?_⟩
    intro h
    have : b = [] := List.length_eq_zero_iff.1 (by omega)
    rw [this]; rfl
  | succ n ih =>
    intro b
    simp only [decodeGo]
    cases h : decode1 b with
    | none => exact ⟨rfl, fun _ => h⟩
    | some p =>
      obtain ⟨c, r⟩ := p
      have hb := decode1_some h
      have ⟨h1, h2⟩ := ih r
      refine ⟨?_, ?_⟩
      · simp only [encode_cons, List.append_assoc, h1, hb]
      · intro hl
        apply h2
        have := encodeChar_length c
        have := utf8Len_pos c
        rw [hb, List.length_append] at hl
        omega

theorem decodeGo_encode : ∀ (s : List Char) (n : Nat) (r : Bytes), s.length ≤ n → decode1 r = none →
    decodeGo n (encode s ++ r) = (s, r) := by
  intro s
  induction s with
  | nil =>
    intro n r _ hr
    cases n with
    | zero => rfl
    | succ n => simp [encode_nil, decodeGo, hr]
  | cons c s ih =>
    intro n r hn hr
    cases n with
    | zero => simp at hn
    | succ n =>
      rw [encode_cons, List.append_assoc, decodeGo, decode1_encode]
      simp only
      rw [ih n r (by simpa using hn) hr]

theorem length_le_encode (s : List Char) : s.length ≤ (encode s).length := by
  induction s with
  | nil => simp
  | cons c s ih =>
    rw [encode_cons, List.length_append, encodeChar_length]
    have := utf8Len_pos c
    simp; omega

theorem decodePrefix_spec (b : Bytes) : encode (decodePrefix b).1 ++ (decodePrefix b).2 = b ∧ decode1 (decodePrefix b).2 = none :=
  ⟨(decodeGo_spec _ b).1, (decodeGo_spec _ b).2 (Nat.le_refl _)⟩

theorem decodePrefix_encode (s : List Char) (r : Bytes) (hr : decode1 r = none) : decodePrefix (encode s ++ r) = (s, r) := by
  apply decodeGo_encode _ _ _ _ hr
  have := length_le_encode s
  rw [List.length_append]; omega

/-- The well-formed prefix found is the longest one. -/
theorem decodePrefix_maximal (s : List Char) (r : Bytes) : ∃ t, (decodePrefix (encode s ++ r)).1 = s ++ t := by
  have h := decodePrefix_spec r
  refine ⟨(decodePrefix r).1, ?_⟩
  have h2 := decodePrefix_encode (s ++ (decodePrefix r).1) (decodePrefix r).2 h.2
  rw [encode_append, List.append_assoc, h.1] at h2
  rw [h2]

theorem fromUtf8_encode (s : List Char) : fromUtf8 (encode s) = some s := by
  have := decodePrefix_encode s [] rfl
  rw [List.append_nil] at this
  simp [fromUtf8, this]

theorem fromUtf8_some {b : Bytes} {s : List Char} (h : fromUtf8 b = some s) : b = encode s := by
  unfold fromUtf8 at h
  split at h
  · rename_i h0
    injection h with h
    have := (decodePrefix_spec b).1
    rw [h0, h, List.append_nil] at this
    exact this.symm
  · simp at h

theorem fromUtf8_iff {b : Bytes} {s : List Char} : fromUtf8 b = some s ↔ b = encode s :=
  ⟨fromUtf8_some, fun h => h ▸ fromUtf8_encode s⟩

theorem encode_injective {s t : List Char} (h : encode s = encode t) : s = t := by
  have := fromUtf8_encode s
  rw [h, fromUtf8_encode] at this
  injection this with this
  exact this.symm

theorem encode_append_left {a b c d : List Char} (h : encode a ++ encode b = encode c ++ encode d) : a ++ b = c ++ d := by
  apply encode_injective; rw [encode_append, encode_append, h]

/-! ### Boundaries -/

theorem encodeChar_head (c : Char) : ∃ b r, encodeChar c = b :: r ∧ isBoundaryByte b = true ∧ ∀ x ∈ r, isBoundaryByte x = false := by
  have hr := char_range c
  unfold encodeChar
  simp only
  split
  · exact ⟨_, _, rfl, by simp only [isBoundaryByte]; rw [u8 (by omega)]; simp; omega, by simp⟩
  · split
    · refine ⟨_, _, rfl, by simp only [isBoundaryByte]; rw [u8 (by omega)]; simp, ?_⟩
      intro x hx
      simp only [List.mem_singleton] at hx
      subst hx
      simp only [isBoundaryByte]; rw [u8 (by omega)]; simp; omega
    · split
      · refine ⟨_, _, rfl, by simp only [isBoundaryByte]; rw [u8 (by omega)]; simp; omega, ?_⟩
        intro x hx
        simp only [List.mem_cons, List.not_mem_nil, or_false] at hx
        rcases hx with rfl | rfl <;> (simp only [isBoundaryByte]; rw [u8 (by omega)]; simp; omega)
      · refine ⟨_, _, rfl, by simp only [isBoundaryByte]; rw [u8 (by omega)]; simp; omega, ?_⟩
        intro x hx
        simp only [List.mem_cons, List.not_mem_nil, or_false] at hx
        rcases hx with rfl | rfl | rfl <;> (simp only [isBoundaryByte]; rw [u8 (by omega)]; simp; omega)

/-- A suffix of UTF-8 text starting at a boundary byte is the encoding of a suffix of the scalars. -/
theorem drop_boundary : ∀ (s : List Char) (k : Nat) (b : UInt8) (r : Bytes), (encode s).drop k = b :: r → isBoundaryByte b = true →
    ∃ x y, s = x ++ y ∧ (encode x).length = k ∧ encode y = b :: r := by
  intro s
  induction s with
  | nil => intro k b r h; simp [encode_nil] at h
  | cons c s ih =>
    intro k b r h hb
    obtain ⟨b0, r0, he, hb0, hr0⟩ := encodeChar_head c
    by_cases hk : k = 0
    · subst hk
      exact ⟨[], c :: s, rfl, rfl, by simpa using h⟩
    · by_cases hlt : k < (encodeChar c).length
      · exfalso
        rw [encode_cons, List.drop_append_of_le_length (by omega)] at h
        have : b ∈ r0 := by
          obtain ⟨j, rfl⟩ : ∃ j, k = j + 1 := ⟨k - 1, by omega⟩
          rw [he, List.drop_succ_cons] at h
          rw [he, List.length_cons] at hlt
          cases hd : r0.drop j with
          | nil => have := List.drop_eq_nil_iff.1 hd; omega
          | cons z zs =>
            rw [hd, List.cons_append] at h
            injection h with h _
            rw [← h]
            exact List.mem_of_mem_drop (i := j) (by rw [hd]; simp)
        rw [hr0 b this] at hb; simp at hb
      · rw [encode_cons, List.drop_append, List.drop_eq_nil_of_le (by omega), List.nil_append] at h
        obtain ⟨x, y, hs, hl, hy⟩ := ih _ b r h hb
        refine ⟨c :: x, y, by rw [hs]; rfl, ?_, hy⟩
        rw [encode_cons, List.length_append, hl]; omega

/-- Char boundaries are exactly the byte lengths of prefixes. -/
theorem isCharBoundary_iff {s : List Char} {k : Nat} : isCharBoundary s k = true ↔ ∃ x y, s = x ++ y ∧ (encode x).length = k := by
  unfold isCharBoundary
  constructor
  · intro h
    simp only [Bool.or_eq_true, beq_iff_eq] at h
    rcases h with (h | h) | h
    · exact ⟨[], s, rfl, h.symm⟩
    · exact ⟨s, [], by simp, h.symm⟩
    · split at h
      · rename_i b hb
        have hlt : k < (encode s).length := (List.getElem?_eq_some_iff.1 hb).1
        have hd : (encode s).drop k = b :: (encode s).drop (k + 1) := by
          rw [List.drop_eq_getElem_cons hlt, (List.getElem?_eq_some_iff.1 hb).2]
        obtain ⟨x, y, h1, h2, -⟩ := drop_boundary s k b _ hd h
        exact ⟨x, y, h1, h2⟩
      · simp at h
  · rintro ⟨x, y, rfl, rfl⟩
    cases y with
    | nil => simp
    | cons c y =>
      obtain ⟨b, r, he, hb, -⟩ := encodeChar_head c
      simp only [encode_append, encode_cons, he, List.cons_append, Bool.or_eq_true]
      right
      simp [hb]

end Verif
