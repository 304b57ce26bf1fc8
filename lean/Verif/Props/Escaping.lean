import Verif.Escape
import Verif.Props.Everyday
import Verif.Props.Unicode

/-!
# Property C111: escaped text
-/

namespace Verif
open Ucd Spec

theorem hexDigit_table : ∀ n : Fin 16, (0x20 ≤ (hexDigit n.val).toNat ∧ (hexDigit n.val).toNat ≤ 0x7e) ∧ hexDigit n.val ≠ '}' ∧
    (if (hexDigit n.val).toNat ≤ 57 then (hexDigit n.val).toNat - 48 else (hexDigit n.val).toNat - 87) = n.val := by decide +kernel

theorem hexDigits_ascii (n : Nat) : ∀ c ∈ hexDigits n, (0x20 ≤ c.toNat ∧ c.toNat ≤ 0x7e) ∧ c ≠ '}' := by
  induction n using Nat.strongRecOn with
  | _ n ih =>
    rw [hexDigits]
    split
    · rename_i h
      intro c hc
      rw [List.mem_singleton.1 hc]
      exact ⟨(hexDigit_table ⟨n, h⟩).1, (hexDigit_table ⟨n, h⟩).2.1⟩
    · rename_i h
      intro c hc
      rcases List.mem_append.1 hc with hc | hc
      · exact ih (n / 16) (by omega) c hc
      · rw [List.mem_singleton.1 hc]
        have := hexDigit_table ⟨n % 16, Nat.mod_lt _ (by decide)⟩
        exact ⟨this.1, this.2.1⟩

/-- The value of hexadecimal digits. -/
def hexValue (l : List Char) : Nat := l.foldl (fun v c => v * 16 + if c.toNat ≤ 57 then c.toNat - 48 else c.toNat - 87) 0

theorem hexValue_digits (n : Nat) : hexValue (hexDigits n) = n := by
  induction n using Nat.strongRecOn with
  | _ n ih =>
    rw [hexDigits]
    split
    · rename_i h
      have := (hexDigit_table ⟨n, h⟩).2.2
      simpa [hexValue] using this
    · rename_i h
      have h1 := ih (n / 16) (by omega)
      have h2 := (hexDigit_table ⟨n % 16, Nat.mod_lt _ (by decide)⟩).2.2
      unfold hexValue at h1 ⊢
      rw [List.foldl_append, h1, List.foldl_cons, List.foldl_nil, h2]
      dsimp only
      omega

/-- The first escaped scalar, read back. -/
def unescapeOne : List Char → Option (Char × List Char)
  | [] => none
  | c :: r =>
    if c ≠ '\\' then some (c, r)
    else match r with
      | [] => none
      | d :: r =>
        if d = 'u' then some (Char.ofNat (hexValue ((r.drop 1).takeWhile (· ≠ '}'))), ((r.drop 1).dropWhile (· ≠ '}')).drop 1)
        else some (if d = 't' then '\t' else if d = 'r' then '\r' else if d = 'n' then '\n' else d, r)

theorem unescape_unicode (c : Char) (r : List Char) : unescapeOne (escapeUnicodeChar c ++ r) = some (c, r) := by
  have h1 : ((hexDigits c.toNat ++ ['}'] ++ r).takeWhile (· ≠ '}')) = hexDigits c.toNat := by
    rw [List.append_assoc, List.takeWhile_append_of_pos (fun x hx => by simpa using (hexDigits_ascii _ x hx).2)]
    simp
  have h2 : ((hexDigits c.toNat ++ ['}'] ++ r).dropWhile (· ≠ '}')) = '}' :: r := by
    rw [List.append_assoc, List.dropWhile_append_of_pos (fun x hx => by simpa using (hexDigits_ascii _ x hx).2)]
    simp
  have e : escapeUnicodeChar c ++ r = '\\' :: 'u' :: '{' :: (hexDigits c.toNat ++ ['}'] ++ r) := by simp [escapeUnicodeChar]
  rw [e]
  simp only [unescapeOne, ne_eq, not_true, if_false, if_true, List.drop_succ_cons, List.drop_zero]
  simp only [ne_eq] at h1 h2
  rw [h1, h2, hexValue_digits, Char.ofNat_toNat]
  rfl

theorem unescape_default (c : Char) (r : List Char) : unescapeOne (escapeDefaultChar c ++ r) = some (c, r) := by
  unfold escapeDefaultChar
  split
  · rename_i h; subst h; rfl
  split
  · rename_i h; subst h; rfl
  split
  · rename_i h; subst h; rfl
  split
  · rename_i h; rcases h with rfl | rfl | rfl <;> rfl
  split
  · rename_i h _
    have : c ≠ '\\' := fun g => h (Or.inr (Or.inr g))
    simp [unescapeOne, this]
  · exact unescape_unicode c r

theorem escape_injective {f : Char → List Char} (hf : ∀ c r, unescapeOne (f c ++ r) = some (c, r)) :
    ∀ s t : List Char, s.flatMap f = t.flatMap f → s = t := by
  have hne : ∀ c r, f c ++ r ≠ [] := fun c r h => by have := hf c r; rw [h] at this; simp [unescapeOne] at this
  intro s
  induction s with
  | nil =>
    intro t h
    cases t with
    | nil => rfl
    | cons d t => exact absurd h.symm (hne d _)
  | cons c s ih =>
    intro t h
    cases t with
    | nil => exact absurd h (hne c _)
    | cons d t =>
      rw [List.flatMap_cons, List.flatMap_cons] at h
      have h1 := hf c (s.flatMap f)
      rw [h, hf d] at h1
      injection h1 with h1
      injection h1 with h1 h2
      rw [h1, ih t h2.symm]

theorem escapeUnicodeChar_ascii (c : Char) : ∀ x ∈ escapeUnicodeChar c, 0x20 ≤ x.toNat ∧ x.toNat ≤ 0x7e := by
  intro x hx
  simp only [escapeUnicodeChar, List.mem_cons, List.mem_append, List.not_mem_nil, or_false] at hx
  rcases hx with rfl | rfl | rfl | hx | rfl
  · decide
  · decide
  · decide
  · exact (hexDigits_ascii _ x hx).1
  · decide

theorem escapeDefaultChar_ascii (c : Char) : ∀ x ∈ escapeDefaultChar c, 0x20 ≤ x.toNat ∧ x.toNat ≤ 0x7e := by
  unfold escapeDefaultChar
  split
  · decide
  split
  · decide
  split
  · decide
  split
  · rename_i h; rcases h with rfl | rfl | rfl <;> decide
  split
  · rename_i h; intro x hx; rw [List.mem_singleton.1 hx]; exact h
  · exact escapeUnicodeChar_ascii c

/-- C111: whatever the text, `escape_unicode` and `escape_default` give printable ASCII on one line. -/
theorem c111_one_line (s : List Char) : (∀ c ∈ escapeUnicode s, 0x20 ≤ c.toNat ∧ c.toNat ≤ 0x7e) ∧ (∀ c ∈ escapeDefault s, 0x20 ≤ c.toNat ∧ c.toNat ≤ 0x7e) := by
  constructor <;> intro c hc <;> obtain ⟨d, -, hd⟩ := List.mem_flatMap.1 hc
  · exact escapeUnicodeChar_ascii d c hd
  · exact escapeDefaultChar_ascii d c hd

/-- C111: and so Basic Text. -/
theorem c111_valid (s : List Char) : fromText (isBasicText ucd15) (escapeUnicode s) = .ok (escapeUnicode s) ∧
    fromText (isBasicText ucd15) (escapeDefault s) = .ok (escapeDefault s) := by
  have key : ∀ t : List Char, (∀ c ∈ t, 0x20 ≤ c.toNat ∧ c.toNat ≤ 0x7e) → fromText (isBasicText ucd15) t = .ok t := by
    intro t ht
    exact (c81_ascii_accepted t fun c hc => by have := ht c hc; omega).1.2 fun c hc => Or.inr (Or.inr (ht c hc))
  exact ⟨key _ (c111_one_line s).1, key _ (c111_one_line s).2⟩

/-- C111: the escaped forms of different texts are different. -/
theorem c111_injective (s t : List Char) : (escapeUnicode s = escapeUnicode t → s = t) ∧ (escapeDefault s = escapeDefault t → s = t) :=
  ⟨escape_injective unescape_unicode s t, escape_injective unescape_default s t⟩

/-- C111: `escape_default` leaves exactly the strings of printable ASCII without quotes and backslashes alone. -/
theorem c111_unchanged_iff (s : List Char) :
    escapeDefault s = s ↔ ∀ c ∈ s, (0x20 ≤ c.toNat ∧ c.toNat ≤ 0x7e) ∧ c ≠ '\'' ∧ c ≠ '"' ∧ c ≠ '\\' := by
  have hlen : ∀ c, 1 ≤ (escapeDefaultChar c).length := by
    intro c
    unfold escapeDefaultChar
    repeat' split
    all_goals simp [escapeUnicodeChar]
  have hle : ∀ t : List Char, t.length ≤ (escapeDefault t).length := by
    intro t
    induction t with
    | nil => simp
    | cons c t ih =>
      rw [show escapeDefault (c :: t) = escapeDefaultChar c ++ escapeDefault t from rfl, List.length_append, List.length_cons]
      have := hlen c; omega
  have one : ∀ c, escapeDefaultChar c = [c] ↔ (0x20 ≤ c.toNat ∧ c.toNat ≤ 0x7e) ∧ c ≠ '\'' ∧ c ≠ '"' ∧ c ≠ '\\' := by
    intro c
    unfold escapeDefaultChar
    split
    · rename_i h; subst h; decide
    split
    · rename_i h; subst h; decide
    split
    · rename_i h; subst h; decide
    split
    · rename_i h; rcases h with rfl | rfl | rfl <;> decide
    · rename_i h
      simp only [not_or] at h
      split
      · rename_i h'; simp [h', h.1, h.2.1, h.2.2]
      · rename_i h'
        constructor
        · intro g
          have := congrArg List.length g
          simp [escapeUnicodeChar] at this
        · exact fun g => absurd g.1 h'
  induction s with
  | nil => simp [escapeDefault]
  | cons c s ih =>
    rw [show escapeDefault (c :: s) = escapeDefaultChar c ++ escapeDefault s from rfl]
    constructor
    · intro h
      have h1 : escapeDefaultChar c = [c] := by
        have hl := congrArg List.length h
        rw [List.length_append, List.length_cons] at hl
        have := hlen c; have := hle s
        have h2 : (escapeDefaultChar c).length = 1 := by omega
        obtain ⟨x, hx⟩ := List.length_eq_one_iff.1 h2
        rw [hx] at h ⊢
        simp only [List.cons_append, List.nil_append, List.cons.injEq] at h
        rw [h.1]
      rw [h1, List.singleton_append, List.cons.injEq] at h
      intro d hd
      rcases List.mem_cons.1 hd with rfl | hd
      · exact (one _).1 h1
      · exact (ih.1 h.2) d hd
    · intro h
      rw [(one c).2 (h c (by simp)), ih.2 fun d hd => h d (by simp [hd])]
      rfl

/-- `escape_debug` gives no such promise: behind the letter of an escaped newline a mark is left as it is, and would compose with it. -/
theorem c111_debug_differs (ext printable : Char → Bool) (h1 : ext 'a' = false) (h2 : printable 'a' = true) (h3 : printable '\u0303' = true) :
    fromText (isBasicText ucd15) ['a', '\n', '\u0303'] = .ok ['a', '\n', '\u0303'] ∧
    escapeDebug ext printable ['a', '\n', '\u0303'] = ['a', '\\', 'n', '\u0303'] ∧ ¬ BasicText ['a', '\\', 'n', '\u0303'] := by
  refine ⟨by decide +kernel, by simp [escapeDebug, escapeDebugChar, h1, h2, h3], ?_⟩
  exact fun h => absurd (inNfc_iff.1 h.nfc) (by decide +kernel)

example : isBasicText ucd15 ['a', '\n', '̃'] = true := by decide +kernel

example : escapeDefault ['a', '\t', '\'', 'é', '\\', '͏', '\x7f'] =
    "a\\t\\'\\u{e9}\\\\\\u{34f}\\u{7f}".toList := by decide +kernel

example : escapeUnicode ['a', '\n', '😀'] = "\\u{61}\\u{a}\\u{1f600}".toList := by decide +kernel

/-! ## C112: comparing without regard to ASCII case -/

/-- An ASCII capital letter made small. -/
def Spec.asciiLower (c : Char) : Char := if 'A' ≤ c ∧ c ≤ 'Z' then Char.ofNat (c.toNat + 32) else c

theorem lower_table : ∀ n : Fin 128, (encodeChar (asciiLower (Char.ofNat n.val))).map UInt8.toNat = (encodeChar (Char.ofNat n.val)).map (fun b => lowerByte b.toNat) := by
  decide +kernel

theorem lower_char (c : Char) : (encodeChar (asciiLower c)).map UInt8.toNat = (encodeChar c).map (fun b => lowerByte b.toNat) := by
  by_cases h : c.toNat < 128
  · have := lower_table ⟨c.toNat, h⟩
    simpa only [Char.ofNat_toNat] using this
  · have e : asciiLower c = c := by
      unfold asciiLower
      rw [if_neg]
      rintro ⟨-, h2⟩
      have : c.toNat ≤ 90 := h2
      omega
    rw [e]
    apply List.map_congr_left
    intro b hb
    have : 128 ≤ b.toNat := by
      have hc : c.toNat < 0x110000 := by have := c.valid; simp [UInt32.isValidChar, Nat.isValidChar] at this; have : c.toNat = c.val.toNat := rfl; omega
      unfold encodeChar at hb
      simp only at hb
      rw [if_neg h] at hb
      split at hb
      · rcases List.mem_cons.1 hb with rfl | hb
        · rw [UInt8.toNat_ofNat']; omega
        · rw [List.mem_singleton.1 hb, UInt8.toNat_ofNat']; omega
      · split at hb
        · simp only [List.mem_cons, List.not_mem_nil, or_false] at hb
          rcases hb with rfl | rfl | rfl <;> rw [UInt8.toNat_ofNat'] <;> omega
        · simp only [List.mem_cons, List.not_mem_nil, or_false] at hb
          rcases hb with rfl | rfl | rfl | rfl <;> rw [UInt8.toNat_ofNat'] <;> omega
    unfold lowerByte
    rw [if_neg (by omega)]

theorem lower_encode (s : List Char) : (encode (s.map asciiLower)).map UInt8.toNat = (encode s).map (fun b => lowerByte b.toNat) := by
  induction s with
  | nil => rfl
  | cons c s ih => rw [List.map_cons, encode_cons, encode_cons, List.map_append, List.map_append, lower_char, ih]

theorem zip_all {f : UInt8 → Nat} : ∀ a b : List UInt8, (a.length == b.length && (a.zip b).all fun p => f p.1 == f p.2) = true ↔ a.map f = b.map f := by
  intro a
  induction a with
  | nil => intro b; cases b <;> simp
  | cons x a ih =>
    intro b
    cases b with
    | nil => simp
    | cons y b =>
      have := ih b
      simp only [Bool.and_eq_true, beq_iff_eq, List.length_cons, List.zip_cons_cons, List.all_cons, List.map_cons, List.cons.injEq, Nat.add_right_cancel_iff] at this ⊢
      rw [← this]
      constructor
      · rintro ⟨h1, h2, h3⟩; exact ⟨h2, h1, h3⟩
      · rintro ⟨h2, h1, h3⟩; exact ⟨h1, h2, h3⟩

/-- C112: `eq_ignore_ascii_case` compares scalar by scalar, taking ASCII letters that differ in case only for the same. -/
theorem c112_iff (s t : List Char) : eqIgnoreAsciiCase s t = true ↔ s.map asciiLower = t.map asciiLower := by
  unfold eqIgnoreAsciiCase
  rw [zip_all (f := fun b => lowerByte b.toNat), ← lower_encode, ← lower_encode]
  constructor
  · intro h
    exact encode_injective ((List.map_inj_right fun _ _ h => UInt8.toNat_inj.1 h).1 h)
  · intro h; rw [h]

/-- C112: it is an equivalence, and equal texts match. -/
theorem c112_equivalence : (∀ s, eqIgnoreAsciiCase s s = true) ∧ (∀ s t, eqIgnoreAsciiCase s t = eqIgnoreAsciiCase t s) ∧
    (∀ s t u, eqIgnoreAsciiCase s t = true → eqIgnoreAsciiCase t u = true → eqIgnoreAsciiCase s u = true) := by
  refine ⟨fun s => (c112_iff s s).2 rfl, fun s t => ?_, fun s t u h g => (c112_iff s u).2 (((c112_iff s t).1 h).trans ((c112_iff t u).1 g))⟩
  rw [Bool.eq_iff_iff, c112_iff, c112_iff]
  exact eq_comm

/-- C112: matching texts have the same number of scalars and bytes, so positions in one are positions in the other. -/
theorem c112_positions (s t : List Char) (h : eqIgnoreAsciiCase s t = true) (i : Nat) :
    s.length = t.length ∧ (encode s).length = (encode t).length ∧ (encode (s.take i)).length = (encode (t.take i)).length := by
  have h' := (c112_iff s t).1 h
  have hl : ∀ a b : List Char, a.map asciiLower = b.map asciiLower → (encode a).length = (encode b).length := by
    intro a b h
    have := congrArg List.length (lower_encode a)
    have := congrArg List.length (lower_encode b)
    rw [h] at *
    simp only [List.length_map] at *
    omega
  refine ⟨by simpa using congrArg List.length h', hl _ _ h', hl _ _ ?_⟩
  rw [List.map_take, List.map_take, h']

example : eqIgnoreAsciiCase "Straße".toList "sTRAßE".toList = true ∧ eqIgnoreAsciiCase ['É'] ['é'] = false ∧ eqIgnoreAsciiCase ['a'] ['a', 'b'] = false ∧
    eqIgnoreAsciiCase ['@'] ['`'] = false := by decide +kernel

theorem unescape_debug {ext printable : Char → Bool} {first : Bool} {c : Char} (hc : c ≠ '\x00') (r : List Char) :
    unescapeOne (escapeDebugChar ext printable first c ++ r) = some (c, r) := by
  unfold escapeDebugChar
  rw [if_neg hc]
  split
  · rename_i h; subst h; rfl
  split
  · rename_i h; subst h; rfl
  split
  · rename_i h; subst h; rfl
  split
  · rename_i h; rcases h with rfl | rfl | rfl <;> rfl
  rename_i h
  split
  · exact unescape_unicode c r
  split
  · have : c ≠ '\\' := fun g => h (Or.inr (Or.inr g))
    simp [unescapeOne, this]
  · exact unescape_unicode c r

/-- C111: `escape_debug` too gives different results for different texts, whatever the tables say; its result is on one line, and does not begin
with a scalar that extends what is before it. -/
theorem c111_debug (ext printable : Char → Bool) (s t : List Char) (hs : '\x00' ∉ s) (ht : '\x00' ∉ t) :
    (escapeDebug ext printable s = escapeDebug ext printable t → s = t) ∧
    (∀ c ∈ escapeDebug ext printable s, c ≠ '\n' ∧ c ≠ '\r' ∧ c ≠ '\t') ∧
    (ext '\\' = false → ∀ c ∈ (escapeDebug ext printable s).head?, ext c = false) := by
  have hrest : ∀ s t : List Char, '\x00' ∉ s → '\x00' ∉ t → s.flatMap (escapeDebugChar ext printable false) = t.flatMap (escapeDebugChar ext printable false) → s = t := by
    intro s
    induction s with
    | nil =>
      intro t _ ht h
      cases t with
      | nil => rfl
      | cons d t =>
        have h1 := unescape_debug (ext := ext) (printable := printable) (first := false) (c := d) (fun g => ht (by simp [g])) (t.flatMap (escapeDebugChar ext printable false))
        rw [← List.flatMap_cons, ← h] at h1
        simp [unescapeOne] at h1
    | cons c s ih =>
      intro t hs ht h
      simp only [List.mem_cons, not_or] at hs
      have h1 := unescape_debug (ext := ext) (printable := printable) (first := false) (Ne.symm hs.1) (s.flatMap (escapeDebugChar ext printable false))
      rw [← List.flatMap_cons, h] at h1
      cases t with
      | nil => simp [unescapeOne] at h1
      | cons d t =>
        simp only [List.mem_cons, not_or] at ht
        rw [List.flatMap_cons, unescape_debug (Ne.symm ht.1)] at h1
        injection h1 with h1
        injection h1 with h1 h2
        rw [h1, ih t hs.2 ht.2 h2.symm]
  refine ⟨fun h => ?_, ?_, ?_⟩
  · cases s with
    | nil =>
      cases t with
      | nil => rfl
      | cons d t =>
        have h1 := unescape_debug (ext := ext) (printable := printable) (first := true) (c := d) (fun g => ht (by simp [g])) (t.flatMap (escapeDebugChar ext printable false))
        simp only [escapeDebug] at h
        rw [← h] at h1
        simp [unescapeOne] at h1
    | cons c s =>
      simp only [List.mem_cons, not_or] at hs
      have h1 := unescape_debug (ext := ext) (printable := printable) (first := true) (Ne.symm hs.1) (s.flatMap (escapeDebugChar ext printable false))
      cases t with
      | nil =>
        simp only [escapeDebug] at h
        rw [h] at h1
        simp [unescapeOne] at h1
      | cons d t =>
        simp only [List.mem_cons, not_or] at ht
        simp only [escapeDebug] at h
        rw [h, unescape_debug (Ne.symm ht.1)] at h1
        injection h1 with h1
        injection h1 with h1 h2
        rw [h1, hrest s t hs.2 ht.2 h2.symm]
  · have one : ∀ first d, ∀ c ∈ escapeDebugChar ext printable first d, c ≠ '\n' ∧ c ≠ '\r' ∧ c ≠ '\t' := by
      intro first d
      have hu : ∀ c ∈ escapeUnicodeChar d, c ≠ '\n' ∧ c ≠ '\r' ∧ c ≠ '\t' := by
        intro c hc
        have := escapeUnicodeChar_ascii d c hc
        refine ⟨?_, ?_, ?_⟩ <;> rintro rfl <;> revert this <;> decide
      unfold escapeDebugChar
      split
      · decide
      split
      · decide
      split
      · decide
      split
      · decide
      split
      · rename_i h; rcases h with rfl | rfl | rfl <;> decide
      split
      · exact hu
      split
      · rename_i h1 h2 h3 _ _ _
        intro c hc
        rw [List.mem_singleton.1 hc]
        exact ⟨h3, h2, h1⟩
      · exact hu
    intro c hc
    cases s with
    | nil => simp [escapeDebug] at hc
    | cons d s =>
      simp only [escapeDebug, List.mem_append, List.mem_flatMap] at hc
      rcases hc with hc | ⟨e, -, hc⟩
      · exact one _ _ c hc
      · exact one _ _ c hc
  · intro hb c hc
    cases s with
    | nil => simp [escapeDebug] at hc
    | cons d s =>
      have one : ∃ r, escapeDebugChar ext printable true d = '\\' :: r ∨ (escapeDebugChar ext printable true d = d :: r ∧ ext d = false) := by
        unfold escapeDebugChar
        split
        · exact ⟨_, .inl rfl⟩
        split
        · exact ⟨_, .inl rfl⟩
        split
        · exact ⟨_, .inl rfl⟩
        split
        · exact ⟨_, .inl rfl⟩
        split
        · exact ⟨_, .inl rfl⟩
        split
        · exact ⟨_, .inl rfl⟩
        split
        · rename_i h _
          exact ⟨_, .inr ⟨rfl, by simpa using h⟩⟩
        · exact ⟨_, .inl rfl⟩
      simp only [escapeDebug] at hc
      obtain ⟨r, h | ⟨h, he⟩⟩ := one
      · rw [h] at hc; simp at hc; subst hc; exact hb
      · rw [h] at hc; simp at hc; subst hc; exact he

/-- A mark at the beginning is escaped, behind a letter it is not. -/
example : escapeDebug (· == '́') (fun _ => true) ['́', 'e', '́', '"'] = ['\\', 'u', '{', '3', '0', '1', '}', 'e', '́', '\\', '"'] := by decide +kernel

end Verif
