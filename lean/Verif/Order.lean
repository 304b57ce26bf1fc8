import Verif.Utf8

/-!
# Comparison of strings

`Ord`, `PartialOrd`, `Eq` of the text types compare the bytes (`/repo/src/text_string.rs:1199-1218`,
`/repo/src/text_substring.rs:1088-1107`, `PartialEq`/`Eq` derived on the wrapped string).
-/

namespace Verif

/-- `<[u8] as Ord>::cmp` (standard library): the first differing byte decides, then the length. -/
def cmpBytes : Bytes → Bytes → Ordering
  | [], [] => .eq
  | [], _ :: _ => .lt
  | _ :: _, [] => .gt
  | a :: as, b :: bs => if a.toNat < b.toNat then .lt else if b.toNat < a.toNat then .gt else cmpBytes as bs

/-- `<str as Ord>::cmp` and `<str as PartialEq>::eq` (standard library): on the bytes. -/
def cmpStr (s t : List Char) : Ordering := cmpBytes (encode s) (encode t)

theorem cmpBytes_append_eq {x y : Bytes} (a : Bytes) : cmpBytes (a ++ x) (a ++ y) = cmpBytes x y := by
  induction a with
  | nil => rfl
  | cons b a ih => simp [cmpBytes, ih]

theorem cmpBytes_lt {c d : Char} (h : c.toNat < d.toNat) (x y : Bytes) : cmpBytes (encodeChar c ++ x) (encodeChar d ++ y) = .lt := by
  have hc := char_range c
  have hd := char_range d
  unfold encodeChar
  simp only
  split <;> split <;> (repeat' split) <;> simp only [List.cons_append, List.nil_append, cmpBytes] <;>
    (repeat rw [u8 (by omega)]) <;> (repeat' split) <;> first | rfl | omega

theorem cmpBytes_swap : ∀ x y : Bytes, cmpBytes x y = .lt → cmpBytes y x = .gt := by
  intro x
  induction x with
  | nil => intro y h; cases y <;> simp_all [cmpBytes]
  | cons a x ih =>
    intro y h
    cases y with
    | nil => simp [cmpBytes] at h
    | cons b y =>
      unfold cmpBytes at h ⊢
      split at h
      · rw [if_neg (by omega), if_pos (by omega)]
      · split at h
        · simp at h
        · rw [if_neg (by omega), if_neg (by omega)]
          exact ih y h

theorem cmpBytes_gt {c d : Char} (h : d.toNat < c.toNat) (x y : Bytes) : cmpBytes (encodeChar c ++ x) (encodeChar d ++ y) = .gt :=
  cmpBytes_swap _ _ (cmpBytes_lt h y x)

theorem cmpBytes_nil_char (d : Char) (y : Bytes) : cmpBytes [] (encodeChar d ++ y) = .lt := by
  cases h : encodeChar d with
  | nil => exact absurd h (encodeChar_ne_nil d)
  | cons a as => rfl

theorem cmpStr_nil_cons (d : Char) (t : List Char) : cmpStr [] (d :: t) = .lt := cmpBytes_nil_char d (encode t)
theorem cmpStr_cons_nil (d : Char) (t : List Char) : cmpStr (d :: t) [] = .gt := cmpBytes_swap _ _ (cmpBytes_nil_char d (encode t))

theorem cmpStr_cons (c d : Char) (s t : List Char) : cmpStr (c :: s) (d :: t) =
    if c.toNat < d.toNat then .lt else if d.toNat < c.toNat then .gt else cmpStr s t := by
  unfold cmpStr
  rw [encode_cons, encode_cons]
  split
  · exact cmpBytes_lt (by assumption) _ _
  · split
    · exact cmpBytes_gt (by assumption) _ _
    · rw [show c = d from Char.toNat_inj.1 (by omega), cmpBytes_append_eq]

end Verif
