import Verif.Search

/-!
# Searching texts with other patterns, and from the end

`char_indices` and the searching methods of `TextStr` and `TextSubstr` with a pattern that is a `char` or a closure, the
matches taken from the end, and the matches of the empty string.  All are those of `str`.
-/

namespace Verif

/-- `char_indices` (`src/text_string.rs:800-802`, `src/text_substring.rs:695-697`; standard library), from offset `off`. -/
def charIndices : Nat → List Char → List (Nat × Char)
  | _, [] => []
  | off, c :: s => (off, c) :: charIndices (off + utf8Len c) s

/-- `find` with a `char` or closure (`src/text_string.rs:902-907`, `src/text_substring.rs:797-802`).  The standard library goes
through `char_indices`. -/
def findIf (p : Char → Bool) (s : List Char) : Option Nat := ((charIndices 0 s).find? fun x => p x.2).map (·.1)

/-- `rfind` with a `char` or closure (`src/text_string.rs:924-930`, `src/text_substring.rs:819-825`). -/
def rfindIf (p : Char → Bool) (s : List Char) : Option Nat := ((charIndices 0 s).reverse.find? fun x => p x.2).map (·.1)

/-- The indices of `match_indices` with a `char` or closure (`src/text_string.rs:994-999`, `src/text_substring.rs:889-894`);
`rmatch_indices` (`src/text_string.rs:1015-1021`, `src/text_substring.rs:911-917`) gives them in the opposite order. -/
def matchIndicesIf (p : Char → Bool) (s : List Char) : List Nat := ((charIndices 0 s).filter fun x => p x.2).map (·.1)

/-- The disjoint occurrences of `p`, which must not be empty, from the end of `b`. -/
def rmatchBytes (p : Bytes) : Nat → Bytes → List Nat
  | 0, _ => []
  | fuel + 1, b =>
    match rfindBytes p b with
    | none => []
    | some i => i :: rmatchBytes p fuel (b.take i)

/-- The indices of `rmatch_indices` (`src/text_string.rs:1027-1029`, `src/text_substring.rs:923-925`) for a pattern that is
not empty; the matches themselves, and those of `rmatches`, all equal the pattern. -/
def rmatchIndices (s pat : List Char) : List Nat := rmatchBytes (encode pat) ((encode s).length + 1) (encode s)

/-- The indices of `match_indices` for the empty pattern: `str` finds it at every boundary; `rmatch_indices` gives them in
the opposite order. -/
def matchIndicesEmpty (s : List Char) : List Nat := (charIndices 0 s).map (·.1) ++ [(encode s).length]

theorem charIndices_mem {s : List Char} : ∀ {off i : Nat} {c : Char}, (i, c) ∈ charIndices off s ↔
    ∃ a b, s = a ++ c :: b ∧ off + (encode a).length = i := by
  induction s with
  | nil => intro off i c; simp [charIndices]
  | cons d s ih =>
    intro off i c
    simp only [charIndices, List.mem_cons, ih]
    constructor
    · rintro (h | ⟨a, b, rfl, h⟩)
      · injection h with h1 h2; subst h1; subst h2
        exact ⟨[], s, rfl, by simp [encode_nil]⟩
      · refine ⟨d :: a, b, rfl, ?_⟩
        rw [encode_cons, List.length_append, encodeChar_length]
        omega
    · rintro ⟨a, b, h, h2⟩
      cases a with
      | nil =>
        injection h with h1 h3
        left
        rw [← h2, h1]; simp [encode_nil]
      | cons e a =>
        injection h with h1 h3
        right
        refine ⟨a, b, h3, ?_⟩
        rw [encode_cons, List.length_append, encodeChar_length, ← h1] at h2
        omega

theorem charIndices_append (a b : List Char) : ∀ off, charIndices off (a ++ b) = charIndices off a ++ charIndices (off + (encode a).length) b := by
  induction a with
  | nil => intro off; simp [charIndices, encode_nil]
  | cons c a ih =>
    intro off
    simp only [List.cons_append, charIndices, ih, encode_cons, List.length_append, encodeChar_length, Nat.add_assoc]

theorem charIndices_chars (s : List Char) : ∀ off, (charIndices off s).map (·.2) = s := by
  induction s with
  | nil => intro off; rfl
  | cons c s ih => intro off; simp [charIndices, ih]

theorem charIndices_increasing (s : List Char) : ∀ off, (charIndices off s).Pairwise (fun x y => x.1 + utf8Len x.2 ≤ y.1) := by
  induction s with
  | nil => intro off; exact .nil
  | cons c s ih =>
    intro off
    refine List.pairwise_cons.2 ⟨?_, ih _⟩
    rintro ⟨i, d⟩ h
    obtain ⟨a, b, -, h2⟩ := charIndices_mem.1 h
    dsimp only
    omega

theorem findIf_some {p : Char → Bool} {s : List Char} {i : Nat} : findIf p s = some i ↔
    ∃ a c b, s = a ++ c :: b ∧ p c = true ∧ (∀ x ∈ a, p x = false) ∧ (encode a).length = i := by
  have key : ∀ (s : List Char) (off : Nat), ((charIndices off s).find? fun x => p x.2).map (·.1) = some i ↔
      ∃ a c b, s = a ++ c :: b ∧ p c = true ∧ (∀ x ∈ a, p x = false) ∧ off + (encode a).length = i := by
    intro s
    induction s with
    | nil => intro off; simp [charIndices]
    | cons d s ih =>
      intro off
      simp only [charIndices, List.find?_cons]
      cases hd : p d with
      | true =>
        simp only [Option.map_some, Option.some.injEq]
        constructor
        · intro h; exact ⟨[], d, s, rfl, hd, by simp, by simpa [encode_nil] using h⟩
        · rintro ⟨a, c, b, h, hc, ha, h2⟩
          cases a with
          | nil => simpa [encode_nil] using h2
          | cons e a =>
            injection h with h1 h3
            have := ha e (by simp)
            rw [← h1, hd] at this
            simp at this
      | false =>
        rw [ih]
        constructor
        · rintro ⟨a, c, b, rfl, hc, ha, h2⟩
          refine ⟨d :: a, c, b, rfl, hc, ?_, ?_⟩
          · intro x hx
            rcases List.mem_cons.1 hx with rfl | hx
            · exact hd
            · exact ha x hx
          · rw [encode_cons, List.length_append, encodeChar_length]; omega
        · rintro ⟨a, c, b, h, hc, ha, h2⟩
          cases a with
          | nil => injection h with h1 h3; rw [← h1, hd] at hc; simp at hc
          | cons e a =>
            injection h with h1 h3
            refine ⟨a, c, b, h3, hc, fun x hx => ha x (by simp [hx]), ?_⟩
            rw [encode_cons, List.length_append, encodeChar_length, ← h1] at h2
            omega
  have := key s 0
  simp only [Nat.zero_add] at this
  exact this

theorem findIf_none {p : Char → Bool} {s : List Char} : findIf p s = none ↔ ∀ c ∈ s, p c = false := by
  unfold findIf
  rw [Option.map_eq_none_iff, List.find?_eq_none]
  constructor
  · intro h c hc
    rw [← charIndices_chars s 0] at hc
    obtain ⟨x, hx, rfl⟩ := List.mem_map.1 hc
    simpa using h x hx
  · intro h x hx
    have := h x.2 (by rw [← charIndices_chars s 0]; exact List.mem_map_of_mem hx)
    simp [this]

theorem rfindIf_some {p : Char → Bool} {s : List Char} {i : Nat} : rfindIf p s = some i ↔
    ∃ a c b, s = a ++ c :: b ∧ p c = true ∧ (∀ x ∈ b, p x = false) ∧ (encode a).length = i := by
  unfold rfindIf
  have none_iff : ∀ (b : List Char) (off : Nat), (charIndices off b).reverse.find? (fun x => p x.2) = none ↔ ∀ c ∈ b, p c = false := by
    intro b off
    rw [List.find?_eq_none]
    constructor
    · intro h c hc
      rw [← charIndices_chars b off] at hc
      obtain ⟨x, hx, rfl⟩ := List.mem_map.1 hc
      simpa using h x (by simpa using hx)
    · intro h x hx
      have := h x.2 (by rw [← charIndices_chars b off]; exact List.mem_map_of_mem (by simpa using hx))
      simp [this]
  have at_last : ∀ a c b, p c = true → (∀ x ∈ b, p x = false) →
      ((charIndices 0 (a ++ c :: b)).reverse.find? fun x => p x.2).map (·.1) = some (encode a).length := by
    intro a c b hc hb
    rw [charIndices_append]
    simp only [charIndices, List.reverse_append, List.reverse_cons, List.append_assoc, List.find?_append]
    rw [(none_iff b _).2 hb]
    simp [hc]
  constructor
  · intro h
    have hex : ∃ a c b, s = a ++ c :: b ∧ p c = true ∧ ∀ x ∈ b, p x = false := by
      clear at_last
      obtain ⟨x, hx, -⟩ := Option.map_eq_some_iff.1 h
      have hp : ∃ c ∈ s, p c = true := by
        refine ⟨x.2, ?_, by simpa using List.find?_some hx⟩
        rw [← charIndices_chars s 0]
        exact List.mem_map_of_mem (by simpa using List.mem_of_find?_eq_some hx)
      clear h hx x
      induction s with
      | nil => simp at hp
      | cons d s ih =>
        by_cases hs : ∃ c ∈ s, p c = true
        · obtain ⟨a, c, b, rfl, h1, h2⟩ := ih hs
          exact ⟨d :: a, c, b, rfl, h1, h2⟩
        · obtain ⟨c, hc, hpc⟩ := hp
          rcases List.mem_cons.1 hc with rfl | hc
          · refine ⟨[], c, s, rfl, hpc, fun x hx => ?_⟩
            cases hpx : p x with
            | true => exact absurd ⟨x, hx, hpx⟩ hs
            | false => rfl
          · exact absurd ⟨c, hc, hpc⟩ hs
    obtain ⟨a, c, b, rfl, hc, hb⟩ := hex
    rw [at_last a c b hc hb] at h
    exact ⟨a, c, b, rfl, hc, hb, Option.some.inj h⟩
  · rintro ⟨a, c, b, rfl, hc, hb, rfl⟩
    exact at_last a c b hc hb

theorem matchIndicesIf_mem {p : Char → Bool} {s : List Char} {i : Nat} : i ∈ matchIndicesIf p s ↔
    ∃ a c b, s = a ++ c :: b ∧ p c = true ∧ (encode a).length = i := by
  unfold matchIndicesIf
  simp only [List.mem_map, List.mem_filter, Prod.exists]
  constructor
  · rintro ⟨j, c, ⟨h1, h2⟩, rfl⟩
    obtain ⟨a, b, h3, h4⟩ := charIndices_mem.1 h1
    exact ⟨a, c, b, h3, h2, by simpa using h4⟩
  · rintro ⟨a, c, b, h1, h2, h3⟩
    exact ⟨i, c, ⟨charIndices_mem.2 ⟨a, b, h1, by simpa using h3⟩, h2⟩, rfl⟩

theorem matchIndicesIf_increasing (p : Char → Bool) (s : List Char) : (matchIndicesIf p s).Pairwise (· < ·) := by
  unfold matchIndicesIf
  rw [List.pairwise_map]
  refine ((charIndices_increasing s 0).filter _).imp ?_
  intro x y h
  have := utf8Len_pos x.2
  omega

namespace Spec

/-- The byte positions of the disjoint occurrences of `pat` in a string, taken from the end: each is the last one that lies
before those already taken. -/
inductive FromEnd (pat : List Char) : List Char → List Nat → Prop where
  | none {s : List Char} : (∀ a b, s ≠ a ++ (pat ++ b)) → FromEnd pat s []
  | next {a b : List Char} {l : List Nat} : (∀ a' b', a ++ (pat ++ b) = a' ++ (pat ++ b') → a'.length ≤ a.length) → FromEnd pat a l →
      FromEnd pat (a ++ (pat ++ b)) ((encode a).length :: l)

end Spec

open Spec

theorem fromEnd_unique {pat s : List Char} {l l' : List Nat} (h : FromEnd pat s l) (h' : FromEnd pat s l') : l = l' := by
  induction h generalizing l' with
  | none hn =>
    cases h' with
    | none => rfl
    | next _ _ => exact absurd rfl (hn _ _)
  | @next a b l hm _ ih =>
    generalize hs : a ++ (pat ++ b) = s at h'
    cases h' with
    | none hn => exact absurd hs.symm (hn _ _)
    | @next a' b' l' hm' h' =>
      have h1 := hm a' b' hs
      have h2 := hm' a b hs.symm
      obtain ⟨h3, -⟩ := List.append_inj hs (by omega)
      subst h3
      rw [ih h']

theorem rmatchBytes_fromEnd {pat : List Char} (hp : pat ≠ []) : ∀ (fuel : Nat) (s : List Char), (encode s).length < fuel →
    FromEnd pat s (rmatchBytes (encode pat) fuel (encode s)) := by
  intro fuel
  induction fuel with
  | zero => intro s h; omega
  | succ fuel ih =>
    intro s h
    simp only [rmatchBytes]
    cases hf : rfindBytes (encode pat) (encode s) with
    | none => exact .none (rfind_none.1 hf)
    | some i =>
      obtain ⟨⟨a, b, rfl, h2⟩, h3⟩ := rfind_some hf
      have hl : 0 < (encode pat).length := by
        have := length_le_encode pat
        have := List.length_pos_iff.2 hp
        omega
      subst h2
      have ht : (encode (a ++ (pat ++ b))).take (encode a).length = encode a := by
        rw [encode_append]; simp
      dsimp only
      rw [ht]
      refine .next ?_ (ih a ?_)
      · intro a' b' e
        rcases Nat.lt_or_ge a.length a'.length with hlt | hge
        · exfalso
          have := h3 a' b' e
          rcases List.append_eq_append_iff.1 e with ⟨d, hd, -⟩ | ⟨d, hd, -⟩
          · have hdn : d ≠ [] := by rintro rfl; simp at hd; simp [hd] at hlt
            rw [hd, encode_append, List.length_append] at this
            have := length_le_encode d
            have := List.length_pos_iff.2 hdn
            omega
          · have := congrArg List.length hd
            simp at this
            omega
        · exact hge
      · rw [encode_append, encode_append, List.length_append, List.length_append] at h
        omega

namespace Spec

/-- `pat` occurs `k` times in a string, without overlap. -/
inductive Times (pat : List Char) : Nat → List Char → Prop where
  | zero (s : List Char) : Times pat 0 s
  | succ {k : Nat} (a : List Char) {s : List Char} : Times pat k s → Times pat (k + 1) (a ++ (pat ++ s))

end Spec

theorem times_prepend {pat : List Char} {k : Nat} {s : List Char} (h : Times pat k s) (x : List Char) : Times pat k (x ++ s) := by
  cases h with
  | zero => exact .zero _
  | succ a h => rw [← List.append_assoc]; exact .succ _ h

theorem times_append {pat : List Char} {k : Nat} {s : List Char} (h : Times pat k s) (x : List Char) : Times pat k (s ++ x) := by
  induction h with
  | zero => exact .zero _
  | succ a h ih => rw [List.append_assoc, List.append_assoc]; exact .succ _ ih

theorem times_last {pat : List Char} : ∀ {k : Nat} {s : List Char}, Times pat (k + 1) s → ∃ a b, s = a ++ (pat ++ b) ∧ Times pat k a := by
  intro k
  induction k with
  | zero =>
    intro s h
    cases h with
    | succ a h => exact ⟨a, _, rfl, .zero _⟩
  | succ k ih =>
    intro s h
    cases h with
    | succ g h =>
      obtain ⟨a, b, rfl, h2⟩ := ih h
      exact ⟨g ++ (pat ++ a), b, by simp, .succ g h2⟩

theorem gaps_times {pat s : List Char} {gs : List (List Char)} (h : Gaps pat s gs) :
    Times pat (gs.length - 1) s ∧ ∀ k, Times pat k s → k ≤ gs.length - 1 := by
  induction h with
  | last hn =>
    refine ⟨.zero _, fun k hk => ?_⟩
    cases hk with
    | zero => omega
    | succ a h => exact absurd rfl (hn _ _)
  | @next g s gs hm hg ih =>
    obtain ⟨g', gs', rfl⟩ := gaps_ne_nil hg
    refine ⟨?_, fun k hk => ?_⟩
    · have := Times.succ g ih.1
      simpa using this
    · generalize hw : g ++ (pat ++ s) = w at hk
      cases hk with
      | zero => omega
      | @succ k a t h =>
        have hle : g.length ≤ a.length := by
          rcases Nat.lt_or_ge a.length g.length with hlt | hge
          · rw [← List.append_assoc, ← List.append_assoc] at hw
            rcases List.append_eq_append_iff.1 hw with ⟨b, hb, -⟩ | ⟨b, hb, -⟩
            · have := congrArg List.length hb
              simp at this
              omega
            · exact hm a b (by rw [hb]; simp)
          · exact hge
        have hs : ∃ x, s = x ++ t := by
          rw [← List.append_assoc, ← List.append_assoc] at hw
          rcases List.append_eq_append_iff.1 hw with ⟨b, -, hb⟩ | ⟨b, hb, hb2⟩
          · exact ⟨b, hb⟩
          · have := congrArg List.length hb
            simp at this
            have : b = [] := List.length_eq_zero_iff.1 (by omega)
            subst this
            exact ⟨[], by simpa using hb2.symm⟩
        obtain ⟨x, rfl⟩ := hs
        have := ih.2 k (times_prepend h x)
        simp at this ⊢
        omega

theorem fromEnd_times {pat s : List Char} {l : List Nat} (h : FromEnd pat s l) :
    Times pat l.length s ∧ ∀ k, Times pat k s → k ≤ l.length := by
  have snoc : ∀ {k : Nat} {a : List Char} (b : List Char), Times pat k a → Times pat (k + 1) (a ++ (pat ++ b)) := by
    intro k a b h
    induction h with
    | zero s => exact .succ s (.zero _)
    | succ g h ih =>
      have := Times.succ g ih
      simpa using this
  induction h with
  | none hn =>
    refine ⟨.zero _, fun k hk => ?_⟩
    cases hk with
    | zero => omega
    | succ a h => exact absurd rfl (hn _ _)
  | @next a b l hm hl ih =>
    refine ⟨snoc b ih.1, fun k hk => ?_⟩
    cases k with
    | zero => omega
    | succ k =>
      obtain ⟨a', b', e, h⟩ := times_last hk
      have hle := hm a' b' e
      have : ∃ x, a = a' ++ x := by
        rcases List.append_eq_append_iff.1 e with ⟨x, hx, -⟩ | ⟨x, hx, -⟩
        · have := congrArg List.length hx
          simp at this
          have : x = [] := List.length_eq_zero_iff.1 (by omega)
          subst this
          exact ⟨[], by rw [hx]; simp⟩
        · exact ⟨x, hx⟩
      obtain ⟨x, rfl⟩ := this
      have := ih.2 k (times_append h x)
      simp
      omega

theorem gapEnds_length (pat : List Char) : ∀ (gs : List (List Char)) (off : Nat), (gapEnds pat off gs).length = gs.length - 1 := by
  intro gs
  induction gs with
  | nil => intro off; rfl
  | cons g gs ih =>
    intro off
    cases gs with
    | nil => rfl
    | cons g' gs => simp only [gapEnds, List.length_cons, ih]; simp

end Verif
