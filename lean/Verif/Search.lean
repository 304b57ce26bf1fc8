import Verif.StringTheory

/-!
# Searching texts and going through their lines

Model of the searching methods and of `lines` of `TextStr` and `TextSubstr`, which are those of `str`.  The standard
library searches a string pattern in the bytes of a string.
-/

namespace Verif

/-- The first index at which `p` occurs in `b`. -/
def findBytes (p : Bytes) : Bytes → Option Nat
  | [] => if p = [] then some 0 else none
  | x :: r => if p.isPrefixOf (x :: r) then some 0 else (findBytes p r).map (· + 1)

/-- The last index at which `p` occurs in `b`. -/
def rfindBytes (p : Bytes) : Bytes → Option Nat
  | [] => if p = [] then some 0 else none
  | x :: r => match rfindBytes p r with
    | some n => some (n + 1)
    | none => if p.isPrefixOf (x :: r) then some 0 else none

/-- `find` of a `&str` pattern (`src/text_string.rs:915-917`, `src/text_substring.rs:810-812`; `str::find` of the standard
library). -/
def find (s pat : List Char) : Option Nat := findBytes (encode pat) (encode s)

/-- `rfind` (`src/text_string.rs:939-941`, `src/text_substring.rs:834-836`). -/
def rfind (s pat : List Char) : Option Nat := rfindBytes (encode pat) (encode s)

/-- `contains` (`src/text_string.rs:845-847`, `src/text_substring.rs:740-742`). -/
def contains (s pat : List Char) : Bool := (find s pat).isSome

/-- `starts_with` (`src/text_string.rs:868-870`, `src/text_substring.rs:763-765`). -/
def startsWith (s pat : List Char) : Bool := (encode pat).isPrefixOf (encode s)

/-- `ends_with` (`src/text_string.rs:892-894`, `src/text_substring.rs:787-789`). -/
def endsWith (s pat : List Char) : Bool := (encode pat).isSuffixOf (encode s)

/-- The disjoint occurrences of `p`, which must not be empty, from index `off` on. -/
def matchBytes (p : Bytes) : Nat → Nat → Bytes → List Nat
  | 0, _, _ => []
  | fuel + 1, off, b =>
    match findBytes p b with
    | none => []
    | some i => (off + i) :: matchBytes p fuel (off + i + p.length) (b.drop (i + p.length))

/-- The indices of `match_indices` (`src/text_string.rs:1005-1007`, `src/text_substring.rs:900-902`) for a pattern that is
not empty; the matches themselves, and those of `matches`, all equal the pattern. -/
def matchIndices (s pat : List Char) : List Nat := matchBytes (encode pat) ((encode s).length + 1) 0 (encode s)

/-- `str::split_inclusive('\n')` (standard library). -/
def splitInclusive : List Char → List (List Char)
  | [] => []
  | c :: r => if c = '\n' then [c] :: splitInclusive r else match splitInclusive r with
    | [] => [[c]]
    | l :: ls => (c :: l) :: ls

/-- What `str::lines` does with each of them: a newline at its end, and a carriage return before that, are dropped. -/
def chomp (l : List Char) : List Char :=
  if l.getLast? = some '\n' then
    if l.dropLast.getLast? = some '\r' then l.dropLast.dropLast else l.dropLast
  else l

/-- `lines` (`src/text_string.rs:816-818`, `src/text_substring.rs:711-713`; `str::lines`). -/
def lines (s : List Char) : List (List Char) := (splitInclusive s).map chomp

/-! ## Searching bytes is searching scalars -/

theorem findBytes_some {p : Bytes} : ∀ {b : Bytes} {i : Nat}, findBytes p b = some i ↔
    (∃ x y, b = x ++ (p ++ y) ∧ x.length = i) ∧ ∀ x y, b = x ++ (p ++ y) → i ≤ x.length := by
  intro b
  induction b with
  | nil =>
    intro i
    simp only [findBytes]
    constructor
    · intro h
      split at h
      · rename_i hp; subst hp
        injection h with h; subst h
        exact ⟨⟨[], [], rfl, rfl⟩, fun _ _ _ => Nat.zero_le _⟩
      · simp at h
    · rintro ⟨⟨x, y, h, h2⟩, -⟩
      simp at h
      obtain ⟨rfl, rfl, rfl⟩ := h
      simpa using h2
  | cons c r ih =>
    intro i
    simp only [findBytes]
    split
    · rename_i hp
      obtain ⟨y, hy⟩ := List.isPrefixOf_iff_prefix.1 hp
      constructor
      · intro h
        injection h with h; subst h
        exact ⟨⟨[], y, hy.symm, rfl⟩, fun _ _ _ => Nat.zero_le _⟩
      · rintro ⟨-, h2⟩
        have := h2 [] y hy.symm
        simp at this
        rw [this]
    · rename_i hp
      have hn : ∀ y, c :: r ≠ p ++ y := fun y h => hp (List.isPrefixOf_iff_prefix.2 ⟨y, h.symm⟩)
      rw [Option.map_eq_some_iff]
      constructor
      · rintro ⟨j, h, rfl⟩
        obtain ⟨⟨x, y, h1, h2⟩, h3⟩ := ih.1 h
        refine ⟨⟨c :: x, y, by rw [h1]; rfl, by simp [h2]⟩, ?_⟩
        intro x' y' h'
        cases x' with
        | nil => exact absurd h' (hn y')
        | cons d x' =>
          injection h' with _ h'
          have := h3 x' y' h'
          simp; omega
      · rintro ⟨⟨x, y, h1, h2⟩, h3⟩
        cases x with
        | nil => exact absurd h1 (hn y)
        | cons d x =>
          injection h1 with hd h1
          subst hd
          refine ⟨x.length, ih.2 ⟨⟨x, y, h1, rfl⟩, ?_⟩, by simpa using h2⟩
          intro x' y' h'
          have := h3 (c :: x') y' (by rw [h']; rfl)
          simp at this h2
          omega

theorem findBytes_none {p b : Bytes} : findBytes p b = none ↔ ∀ x y, b ≠ x ++ (p ++ y) := by
  constructor
  · intro h
    induction b with
    | nil =>
      simp only [findBytes] at h
      split at h
      · simp at h
      · intro x y hb; simp at hb; simp_all
    | cons c r ih =>
      simp only [findBytes] at h
      split at h
      · simp at h
      · rename_i hp
        rw [Option.map_eq_none_iff] at h
        intro x y hb
        cases x with
        | nil => exact hp (List.isPrefixOf_iff_prefix.2 ⟨y, hb.symm⟩)
        | cons d x => injection hb with _ hb; exact ih h x y hb
  · intro h
    cases hf : findBytes p b with
    | none => rfl
    | some i =>
      obtain ⟨⟨x, y, h1, -⟩, -⟩ := findBytes_some.1 hf
      exact absurd h1 (h x y)

theorem rfindBytes_none {p : Bytes} : ∀ {b : Bytes}, rfindBytes p b = none ↔ ∀ x y, b ≠ x ++ (p ++ y) := by
  intro b
  induction b with
  | nil =>
    simp only [rfindBytes]
    split
    · rename_i hp; subst hp
      simp only [reduceCtorEq, false_iff]
      exact fun h => h [] [] rfl
    · rename_i hp
      simp only [true_iff]
      intro x y hb
      simp at hb
      exact hp hb.2.1
  | cons c r ih =>
    simp only [rfindBytes]
    cases hr : rfindBytes p r with
    | some n =>
      simp only [reduceCtorEq, false_iff]
      intro h
      have : rfindBytes p r = none := ih.2 fun x y e => h (c :: x) y (by rw [e]; rfl)
      rw [hr] at this
      simp at this
    | none =>
      dsimp only
      split
      · rename_i hp
        obtain ⟨y, hy⟩ := List.isPrefixOf_iff_prefix.1 hp
        simp only [reduceCtorEq, false_iff]
        exact fun h => h [] y hy.symm
      · rename_i hp
        simp only [true_iff]
        intro x y hb
        cases x with
        | nil => exact hp (List.isPrefixOf_iff_prefix.2 ⟨y, hb.symm⟩)
        | cons d x => injection hb with _ hb; exact ih.1 hr x y hb

theorem rfindBytes_some {p : Bytes} : ∀ {b : Bytes} {i : Nat}, rfindBytes p b = some i →
    (∃ x y, b = x ++ (p ++ y) ∧ x.length = i) ∧ ∀ x y, b = x ++ (p ++ y) → x.length ≤ i := by
  intro b
  induction b with
  | nil =>
    intro i h
    simp only [rfindBytes] at h
    split at h
    · rename_i hp; subst hp
      injection h with h; subst h
      refine ⟨⟨[], [], rfl, rfl⟩, fun x y h => ?_⟩
      simp at h
      simp [h.1]
    · simp at h
  | cons c r ih =>
    intro i h
    simp only [rfindBytes] at h
    cases hr : rfindBytes p r with
    | some n =>
      rw [hr] at h
      injection h with h; subst h
      obtain ⟨⟨x, y, h1, h2⟩, h3⟩ := ih hr
      refine ⟨⟨c :: x, y, by rw [h1]; rfl, by simp [h2]⟩, ?_⟩
      intro x' y' h'
      cases x' with
      | nil => simp
      | cons d x' =>
        injection h' with _ h'
        have := h3 x' y' h'
        simp; omega
    | none =>
      rw [hr] at h
      dsimp only at h
      split at h
      · rename_i hp
        obtain ⟨y, hy⟩ := List.isPrefixOf_iff_prefix.1 hp
        injection h with h; subst h
        refine ⟨⟨[], y, hy.symm, rfl⟩, ?_⟩
        intro x' y' h'
        cases x' with
        | nil => simp
        | cons d x' => injection h' with _ h'; exact absurd h' (rfindBytes_none.1 hr x' y')
      · simp at h

/-- A non-empty pattern occurs in the bytes of a string only where it occurs in its scalars. -/
theorem occurs_bytes {s pat : List Char} (hp : pat ≠ []) {x y : Bytes} (h : encode s = x ++ (encode pat ++ y)) :
    ∃ a b, s = a ++ (pat ++ b) ∧ x = encode a ∧ y = encode b := by
  obtain ⟨c, pat', rfl⟩ := List.exists_cons_of_ne_nil hp
  obtain ⟨b0, r0, e0, hb0, -⟩ := encodeChar_head c
  have hd : (encode s).drop x.length = b0 :: (r0 ++ (encode pat' ++ y)) := by
    rw [h, List.drop_left', encode_cons, e0]
    · simp
    · rfl
  obtain ⟨a, b, rfl, hl, -⟩ := drop_boundary s x.length b0 _ hd hb0
  rw [encode_append] at h
  obtain ⟨h1, h2⟩ := List.append_inj h hl
  have h3 : ∃ t, b = c :: pat' ++ t := by
    have : (decodePrefix (encode (c :: pat') ++ y)).1 = b := by
      rw [← h2]
      have := decodePrefix_encode b [] rfl
      simpa using congrArg Prod.fst this
    obtain ⟨t, ht⟩ := decodePrefix_maximal (c :: pat') y
    exact ⟨t, by rw [← this, ht]⟩
  obtain ⟨t, rfl⟩ := h3
  rw [encode_append] at h2
  exact ⟨a, t, rfl, h1.symm, (List.append_cancel_left h2).symm⟩

/-- `find`, in terms of scalars. -/
theorem find_some {s pat : List Char} {i : Nat} : find s pat = some i ↔
    (∃ a b, s = a ++ (pat ++ b) ∧ (encode a).length = i) ∧ ∀ a b, s = a ++ (pat ++ b) → i ≤ (encode a).length := by
  have up : ∀ {a b}, s = a ++ (pat ++ b) → encode s = encode a ++ (encode pat ++ encode b) := by
    rintro a b rfl; simp [encode_append]
  by_cases hp : pat = []
  · subst hp
    have hz : find s [] = some 0 := by
      unfold find
      rw [encode_nil]
      cases encode s <;> simp [findBytes]
    rw [hz]
    constructor
    · intro h
      injection h with h; subst h
      exact ⟨⟨[], s, rfl, rfl⟩, fun _ _ _ => Nat.zero_le _⟩
    · rintro ⟨-, h⟩
      have := h [] s rfl
      simp [encode_nil] at this
      rw [this]
  · unfold find
    rw [findBytes_some]
    constructor
    · rintro ⟨⟨x, y, h1, h2⟩, h3⟩
      obtain ⟨a, b, h4, rfl, rfl⟩ := occurs_bytes hp h1
      exact ⟨⟨a, b, h4, h2⟩, fun a' b' h' => h3 _ _ (up h')⟩
    · rintro ⟨⟨a, b, h1, h2⟩, h3⟩
      refine ⟨⟨_, _, up h1, h2⟩, ?_⟩
      intro x y h
      obtain ⟨a', b', h4, rfl, rfl⟩ := occurs_bytes hp h
      exact h3 a' b' h4

theorem find_none {s pat : List Char} : find s pat = none ↔ ∀ a b, s ≠ a ++ (pat ++ b) := by
  constructor
  · rintro h a b rfl
    exact findBytes_none.1 h _ _ (by rw [encode_append, encode_append])
  · intro h
    cases hf : find s pat with
    | none => rfl
    | some i =>
      obtain ⟨⟨a, b, h1, -⟩, -⟩ := find_some.1 hf
      exact absurd h1 (h a b)

/-- `rfind`, in terms of scalars. -/
theorem rfind_some {s pat : List Char} {i : Nat} : rfind s pat = some i →
    (∃ a b, s = a ++ (pat ++ b) ∧ (encode a).length = i) ∧ ∀ a b, s = a ++ (pat ++ b) → (encode a).length ≤ i := by
  intro h
  obtain ⟨⟨x, y, h1, h2⟩, h3⟩ := rfindBytes_some h
  refine ⟨?_, fun a b h' => h3 _ (encode b) (by rw [h', encode_append, encode_append])⟩
  by_cases hp : pat = []
  · subst hp
    have := h3 (encode s) [] (by simp [encode_nil])
    have hl : (encode s).length = x.length + y.length := by rw [h1]; simp [encode_nil]
    exact ⟨s, [], by simp, by omega⟩
  · obtain ⟨a, b, h4, rfl, rfl⟩ := occurs_bytes hp h1
    exact ⟨a, b, h4, h2⟩

theorem rfind_none {s pat : List Char} : rfind s pat = none ↔ ∀ a b, s ≠ a ++ (pat ++ b) := by
  constructor
  · rintro h a b rfl
    exact rfindBytes_none.1 h _ _ (by rw [encode_append, encode_append])
  · intro h
    cases hf : rfind s pat with
    | none => rfl
    | some i =>
      obtain ⟨⟨a, b, h1, -⟩, -⟩ := rfind_some hf
      exact absurd h1 (h a b)

theorem prefix_bytes {s pat : List Char} {y : Bytes} (h : encode s = encode pat ++ y) : ∃ b, s = pat ++ b ∧ y = encode b := by
  by_cases hp : pat = []
  · subst hp; exact ⟨s, rfl, by rw [h]; rfl⟩
  · obtain ⟨a, b, h1, h2, h3⟩ := occurs_bytes (x := []) hp h
    have : a = [] := by
      cases a with
      | nil => rfl
      | cons c a =>
        rw [encode_cons] at h2
        exact absurd (List.append_eq_nil_iff.1 h2.symm).1 (encodeChar_ne_nil c)
    subst this
    exact ⟨b, h1, h3⟩

theorem startsWith_iff {s pat : List Char} : startsWith s pat = true ↔ pat <+: s := by
  unfold startsWith
  rw [List.isPrefixOf_iff_prefix]
  constructor
  · rintro ⟨y, h⟩
    obtain ⟨b, rfl, -⟩ := prefix_bytes h.symm
    exact List.prefix_append _ _
  · rintro ⟨b, rfl⟩
    exact ⟨encode b, (encode_append _ _).symm⟩

theorem endsWith_iff {s pat : List Char} : endsWith s pat = true ↔ pat <:+ s := by
  unfold endsWith
  rw [List.isSuffixOf_iff_suffix]
  constructor
  · rintro ⟨x, h⟩
    by_cases hp : pat = []
    · subst hp; exact List.nil_suffix
    · obtain ⟨a, b, h1, h2, h3⟩ := occurs_bytes (x := x) (y := []) hp (by simpa using h.symm)
      have : b = [] := by
        cases b with
        | nil => rfl
        | cons c a =>
          rw [encode_cons] at h3
          exact absurd (List.append_eq_nil_iff.1 h3.symm).1 (encodeChar_ne_nil c)
      subst this
      exact ⟨a, by rw [h1]; simp⟩
  · rintro ⟨b, rfl⟩
    exact ⟨encode b, (encode_append _ _).symm⟩

/-! ## All matches -/

namespace Spec

/-- `gaps` are the parts of a string between the disjoint occurrences of `pat`, taken from the left: `pat` occurs in none
of them, and in none followed by `pat` before its end. -/
inductive Gaps (pat : List Char) : List Char → List (List Char) → Prop where
  | last {s : List Char} : (∀ a b, s ≠ a ++ (pat ++ b)) → Gaps pat s [s]
  | next {g s : List Char} {gs : List (List Char)} : (∀ a b, g ++ pat = a ++ (pat ++ b) → g.length ≤ a.length) → Gaps pat s gs →
      Gaps pat (g ++ (pat ++ s)) (g :: gs)

/-- The byte positions after each of the gaps but the last, counted from `off`. -/
def gapEnds (pat : List Char) : Nat → List (List Char) → List Nat
  | _, [] => []
  | _, [_] => []
  | off, g :: g' :: gs => (off + (encode g).length) :: gapEnds pat (off + (encode g).length + (encode pat).length) (g' :: gs)

end Spec

open Spec

theorem gaps_ne_nil {pat s : List Char} {gs : List (List Char)} (h : Gaps pat s gs) : ∃ g gs', gs = g :: gs' := by
  cases h <;> exact ⟨_, _, rfl⟩

theorem matchBytes_gaps {pat : List Char} (hp : pat ≠ []) : ∀ (fuel off : Nat) (s : List Char), (encode s).length < fuel →
    ∃ gs, Gaps pat s gs ∧ matchBytes (encode pat) fuel off (encode s) = gapEnds pat off gs := by
  intro fuel
  induction fuel with
  | zero => intro off s h; omega
  | succ fuel ih =>
    intro off s h
    simp only [matchBytes]
    cases hf : findBytes (encode pat) (encode s) with
    | none => exact ⟨[s], .last (find_none.1 hf), rfl⟩
    | some i =>
      obtain ⟨⟨a, b, rfl, h2⟩, h3⟩ := find_some.1 hf
      have hl : 0 < (encode pat).length := by
        have := length_le_encode pat
        have := List.length_pos_iff.2 hp
        omega
      have he : (encode (a ++ (pat ++ b))).length = (encode a).length + (encode pat).length + (encode b).length := by
        simp [encode_append]; omega
      obtain ⟨gs, h4, h5⟩ := ih (off + i + (encode pat).length) b (by omega)
      have hd : (encode (a ++ (pat ++ b))).drop (i + (encode pat).length) = encode b := by
        rw [← h2, ← List.append_assoc, encode_append, List.drop_left']
        rw [encode_append, List.length_append]
      refine ⟨a :: gs, .next ?_ h4, ?_⟩
      · intro a' b' h'
        have := h3 a' (b' ++ b) (by
          have := congrArg (· ++ b) h'
          simpa [List.append_assoc] using this)
        rw [← h2] at this
        rcases List.append_eq_append_iff.1 h' with ⟨t, rfl, -⟩ | ⟨t, rfl, -⟩
        · simp
        · rw [encode_append, List.length_append] at this
          have := length_le_encode t
          simp; omega
      · obtain ⟨g, gs', rfl⟩ := gaps_ne_nil h4
        dsimp only
        rw [hd, h5, ← h2]
        rfl

/-- The gaps of a string are determined. -/
theorem gaps_unique {pat s : List Char} {gs gs' : List (List Char)} (h : Gaps pat s gs) (h' : Gaps pat s gs') : gs = gs' := by
  have key : ∀ {g g' t t' : List Char}, g ++ (pat ++ t) = g' ++ (pat ++ t') → (∀ a b, g' ++ pat = a ++ (pat ++ b) → g'.length ≤ a.length) →
      g'.length ≤ g.length := by
    intro g g' t t' e hm
    rcases Nat.lt_or_ge g.length g'.length with hlt | hge
    · rw [← List.append_assoc, ← List.append_assoc] at e
      rcases List.append_eq_append_iff.1 e with ⟨b, hb, -⟩ | ⟨b, hb, -⟩
      · exact hm g b (by rw [hb]; simp)
      · have := congrArg List.length hb
        simp at this
        omega
    · exact hge
  induction h generalizing gs' with
  | last hl =>
    cases h' with
    | last => rfl
    | next => exact absurd rfl (hl _ _)
  | @next g t gs hm hg ih =>
    generalize hs : g ++ (pat ++ t) = s' at h'
    cases h' with
    | last hl => exact absurd hs.symm (hl _ _)
    | @next g' t' gs'' hm' hg' =>
      have l1 := key hs hm'
      have l2 := key hs.symm hm
      obtain ⟨rfl, e⟩ := List.append_inj hs (by omega)
      rw [List.append_cancel_left e] at ih
      rw [ih hg']

/-! ## Lines -/

theorem splitInclusive_flatten (s : List Char) : (splitInclusive s).flatten = s := by
  induction s with
  | nil => rfl
  | cons c s ih =>
    simp only [splitInclusive]
    split
    · simp [ih]
    · cases hs : splitInclusive s with
      | nil => rw [hs] at ih; simp at ih; simp [← ih]
      | cons l ls => rw [hs] at ih; simp at ih; simp [ih]

theorem splitInclusive_ne {s l : List Char} (h : l ∈ splitInclusive s) : l ≠ [] := by
  induction s generalizing l with
  | nil => simp [splitInclusive] at h
  | cons c s ih =>
    simp only [splitInclusive] at h
    split at h
    · rcases List.mem_cons.1 h with rfl | h
      · simp
      · exact ih h
    · cases hs : splitInclusive s with
      | nil => rw [hs] at h; simp at h; simp [h]
      | cons l' ls =>
        rw [hs] at h ih
        rcases List.mem_cons.1 h with rfl | h
        · simp
        · exact ih (List.mem_cons_of_mem _ h)

/-- The lines of a string without carriage returns, scalar by scalar. -/
theorem lines_cons {c : Char} {s : List Char} (hc : c ≠ '\r') : lines (c :: s) =
    if c = '\n' then [] :: lines s else match lines s with | [] => [[c]] | l :: ls => (c :: l) :: ls := by
  unfold lines
  simp only [splitInclusive]
  split
  · rename_i h; subst h; rfl
  · rename_i h
    cases hs : splitInclusive s with
    | nil => simp [chomp, h]
    | cons l ls =>
      have hl : l ≠ [] := splitInclusive_ne (s := s) (by rw [hs]; simp)
      have e1 : (c :: l).getLast? = l.getLast? := by
        obtain ⟨a, l', rfl⟩ := List.exists_cons_of_ne_nil hl
        simp
      have e2 : (c :: l).dropLast = c :: l.dropLast := List.dropLast_cons_of_ne_nil hl
      simp only [List.map_cons, List.cons.injEq, and_true]
      unfold chomp
      rw [e1, e2]
      split
      · cases hd : l.dropLast with
        | nil => simp [hc]
        | cons x xs =>
          have e3 : (c :: x :: xs).getLast? = (x :: xs).getLast? := by simp
          rw [e3]
          split
          · rw [List.dropLast_cons_of_ne_nil (by simp)]
          · rfl
      · rfl

theorem lines_no_nl {s : List Char} (hr : '\r' ∉ s) : ∀ l ∈ lines s, '\n' ∉ l := by
  induction s with
  | nil => simp [lines, splitInclusive]
  | cons c s ih =>
    simp only [List.mem_cons, not_or] at hr
    have ih := ih hr.2
    rw [lines_cons fun h => hr.1 h.symm]
    split
    · intro l hl
      rcases List.mem_cons.1 hl with rfl | hl
      · simp
      · exact ih l hl
    · rename_i hc
      cases hs : lines s with
      | nil => simp [Ne.symm hc]
      | cons l ls =>
        rw [hs] at ih
        intro x hx
        rcases List.mem_cons.1 hx with rfl | hx
        · simp only [List.mem_cons, not_or]
          exact ⟨Ne.symm hc, ih l (by simp)⟩
        · exact ih x (by simp [hx])

theorem lines_join {s : List Char} (hr : '\r' ∉ s) :
    (lines s).flatMap (· ++ ['\n']) = if s = [] ∨ s.getLast? = some '\n' then s else s ++ ['\n'] := by
  induction s with
  | nil => simp [lines, splitInclusive]
  | cons c s ih =>
    simp only [List.mem_cons, not_or] at hr
    have ih := ih hr.2
    rw [lines_cons fun h => hr.1 h.symm]
    split
    · rename_i hc; subst hc
      rw [List.flatMap_cons, ih]
      cases s with
      | nil => simp
      | cons d s => simp only [reduceCtorEq, false_or, List.getLast?_cons_cons]; split <;> simp
    · rename_i hc
      cases hs : lines s with
      | nil =>
        rw [hs] at ih
        have : s = [] := by
          simp at ih
          split at ih
          · exact ih
          · simp at ih
        subst this
        simp [hc]
      | cons l ls =>
        rw [hs] at ih
        simp only [List.flatMap_cons, List.cons_append] at ih ⊢
        rw [ih]
        cases s with
        | nil => simp [lines, splitInclusive] at hs
        | cons d s => simp only [reduceCtorEq, false_or, List.getLast?_cons_cons]; split <;> simp

theorem join_injective : ∀ {a b : List (List Char)}, (∀ l ∈ a, '\n' ∉ l) → (∀ l ∈ b, '\n' ∉ l) →
    a.flatMap (· ++ ['\n']) = b.flatMap (· ++ ['\n']) → a = b := by
  intro a
  induction a with
  | nil => intro b _ _ h; cases b <;> simp_all
  | cons x a ih =>
    intro b ha hb h
    cases b with
    | nil => simp at h
    | cons y b =>
      simp only [List.flatMap_cons, List.append_assoc, List.singleton_append] at h
      have hx := ha x (by simp)
      have hy := hb y (by simp)
      have : x = y := by
        rcases List.append_eq_append_iff.1 h with ⟨t, e1, e2⟩ | ⟨t, e1, e2⟩
        · cases t with
          | nil => simpa using e1.symm
          | cons z t =>
            injection e2 with e2 _
            subst e2
            exact absurd (by rw [e1]; simp) hy
        · cases t with
          | nil => simpa using e1
          | cons z t =>
            injection e2 with e2 _
            subst e2
            exact absurd (by rw [e1]; simp) hx
      subst this
      have h := List.append_cancel_left h
      injection h with _ h
      rw [ih (fun l hl => ha l (List.mem_cons_of_mem _ hl)) (fun l hl => hb l (List.mem_cons_of_mem _ hl)) h]

end Verif
