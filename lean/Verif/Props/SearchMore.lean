import Verif.SearchMore
import Verif.Props.Everyday

/-!
# C85 for the other patterns, and from the end
-/

namespace Verif
open Spec

/-- C85: `char_indices` gives the scalars in order, each with the number of bytes before it. -/
theorem c85_char_indices (s : List Char) : (charIndices 0 s).map (·.2) = s ∧ (charIndices 0 s).Pairwise (fun x y => x.1 < y.1) ∧
    ∀ i c, (i, c) ∈ charIndices 0 s ↔ ∃ a b, s = a ++ c :: b ∧ (encode a).length = i := by
  refine ⟨charIndices_chars s 0, (charIndices_increasing s 0).imp ?_, fun i c => ?_⟩
  · intro x y h
    have := utf8Len_pos x.2
    omega
  · simpa using charIndices_mem (s := s) (off := 0) (i := i) (c := c)

/-- C85, with a `char` or closure: `find` gives the position of the first scalar that matches, `rfind` that of the last,
and both nothing if none does. -/
theorem c85_find_if (p : Char → Bool) (s : List Char) :
    (∀ i, findIf p s = some i ↔ ∃ a c b, s = a ++ c :: b ∧ p c = true ∧ (∀ x ∈ a, p x = false) ∧ (encode a).length = i) ∧
    (∀ i, rfindIf p s = some i ↔ ∃ a c b, s = a ++ c :: b ∧ p c = true ∧ (∀ x ∈ b, p x = false) ∧ (encode a).length = i) ∧
    (findIf p s = none ↔ ∀ c ∈ s, p c = false) ∧ (rfindIf p s = none ↔ ∀ c ∈ s, p c = false) := by
  refine ⟨fun i => findIf_some, fun i => rfindIf_some, findIf_none, ?_⟩
  have h : rfindIf p s = none ↔ findIf p s = none := by
    unfold rfindIf findIf
    rw [Option.map_eq_none_iff, Option.map_eq_none_iff, List.find?_eq_none, List.find?_eq_none]
    simp only [List.mem_reverse]
  rw [h, findIf_none]

/-- C85, with a `char` or closure: `match_indices` gives the positions of all scalars that match, in order. -/
theorem c85_matches_if (p : Char → Bool) (s : List Char) : (matchIndicesIf p s).Pairwise (· < ·) ∧
    ∀ i, i ∈ matchIndicesIf p s ↔ ∃ a c b, s = a ++ c :: b ∧ p c = true ∧ (encode a).length = i :=
  ⟨matchIndicesIf_increasing p s, fun _ => matchIndicesIf_mem⟩

/-- C85: a `char` is found where the string of that one scalar is found. -/
theorem c85_char_is_string (s : List Char) (c : Char) : findIf (· == c) s = find s [c] ∧ rfindIf (· == c) s = rfind s [c] := by
  have hl : ∀ a b : List Char, (∃ d, b = a ++ d) → (encode a).length ≤ (encode b).length := by
    rintro a _ ⟨d, rfl⟩
    rw [encode_append, List.length_append]; omega
  constructor
  · cases hf : findIf (· == c) s with
    | none =>
      refine (find_none.2 ?_).symm
      rintro a b rfl
      have := findIf_none.1 hf c (by simp)
      simp at this
    | some i =>
      obtain ⟨a, c', b, rfl, hc, ha, rfl⟩ := findIf_some.1 hf
      have hc : c' = c := by simpa using hc
      subst hc
      refine (find_some.2 ⟨⟨a, b, rfl, rfl⟩, fun a' b' e => hl a a' ?_⟩).symm
      rcases List.append_eq_append_iff.1 e with ⟨d, hd, -⟩ | ⟨d, hd, h2⟩
      · exact ⟨d, hd⟩
      · cases d with
        | nil => exact ⟨[], by rw [hd]; simp⟩
        | cons x d =>
          injection h2 with h2 _
          have := ha c' (by rw [hd, h2]; simp)
          simp at this
  · cases hf : rfindIf (· == c) s with
    | none =>
      refine (rfind_none.2 ?_).symm
      rintro a b rfl
      have := (c85_find_if _ _).2.2.2.1 hf c (by simp)
      simp at this
    | some i =>
      obtain ⟨a, c', b, rfl, hc, hb, rfl⟩ := rfindIf_some.1 hf
      have hc : c' = c := by simpa using hc
      subst hc
      refine (((c85_find _ _).2.1 _).2 ⟨⟨a, b, rfl, rfl⟩, fun a' b' e => hl a' a ?_⟩).symm
      rcases List.append_eq_append_iff.1 e with ⟨d, hd, h2⟩ | ⟨d, hd, -⟩
      · cases d with
        | nil => exact ⟨[], by rw [hd]; simp⟩
        | cons x d =>
          injection h2 with h2 h3
          have h3 : b = d ++ ([c'] ++ b') := h3
          have := hb c' (by rw [h3]; simp)
          simp at this
      · exact ⟨d, hd⟩

/-- C85: the positions of `rmatch_indices` are those of the matches taken from the end, each the last that lies before the
one taken last. -/
theorem c85_matches_from_end (s pat : List Char) (hp : pat ≠ []) (l : List Nat) : rmatchIndices s pat = l ↔ FromEnd pat s l := by
  have := rmatchBytes_fromEnd hp ((encode s).length + 1) s (by omega)
  exact ⟨fun h => h ▸ this, fun h => fromEnd_unique this h⟩

/-- They need not be those of `match_indices`. -/
example : matchIndices ['a', 'a', 'a'] ['a', 'a'] = [0] ∧ rmatchIndices ['a', 'a', 'a'] ['a', 'a'] = [1] := by decide +kernel

/-- C85: the empty string is found at every boundary between scalars and at both ends. -/
theorem c85_matches_empty (s : List Char) : (matchIndicesEmpty s).Pairwise (· < ·) ∧
    ∀ i, i ∈ matchIndicesEmpty s ↔ ∃ a b, s = a ++ b ∧ (encode a).length = i := by
  constructor
  · unfold matchIndicesEmpty
    refine List.pairwise_append.2 ⟨?_, List.pairwise_singleton _ _, ?_⟩
    · rw [List.pairwise_map]
      exact (c85_char_indices s).2.1
    · intro i hi j hj
      obtain ⟨⟨i', c⟩, h1, rfl⟩ := List.mem_map.1 hi
      obtain ⟨a, b, rfl, h2⟩ := charIndices_mem.1 h1
      have hj : j = (encode (a ++ c :: b)).length := by simpa using hj
      rw [hj, encode_append, List.length_append, encode_cons, List.length_append, encodeChar_length]
      have := utf8Len_pos c
      dsimp only
      omega
  · intro i
    unfold matchIndicesEmpty
    rw [List.mem_append, List.mem_map]
    constructor
    · rintro (⟨⟨i', c⟩, h1, rfl⟩ | h)
      · obtain ⟨a, b, rfl, h2⟩ := charIndices_mem.1 h1
        exact ⟨a, c :: b, rfl, by simpa using h2⟩
      · exact ⟨s, [], by simp, by simpa using (List.mem_singleton.1 h).symm⟩
    · rintro ⟨a, b, rfl, rfl⟩
      cases b with
      | nil => right; simp
      | cons c b => left; exact ⟨(_, c), charIndices_mem.2 ⟨a, b, rfl, by simp⟩, rfl⟩

example : charIndices 0 ['é', 'a', '\n'] = [(0, 'é'), (2, 'a'), (3, '\n')] ∧ findIf (·.isWhitespace) ['é', 'a', '\n', ' '] = some 3 ∧
    rfindIf (·.isWhitespace) ['é', 'a', '\n', ' '] = some 4 ∧ findIf (· == 'e') ['é', 'a'] = none ∧
    matchIndicesIf (· == 'a') ['a', 'é', 'a'] = [0, 3] ∧ matchIndicesEmpty ['é', 'a'] = [0, 2, 3] ∧
    rmatchIndices ['a', 'a', 'é', 'a', 'a', 'a'] ['a', 'a'] = [5, 0] := by decide +kernel

/-- C85: from the left as from the end, as many matches are found as the text has room for: there are that many that do not
overlap, and not more. -/
theorem c85_most_matches (s pat : List Char) (hp : pat ≠ []) : (matchIndices s pat).length = (rmatchIndices s pat).length ∧
    ∀ k, Times pat k s ↔ k ≤ (matchIndices s pat).length := by
  obtain ⟨gs, h1, h2, -⟩ := c85_matches s pat hp
  obtain ⟨h3, h4⟩ := gaps_times h1
  obtain ⟨h5, h6⟩ := fromEnd_times ((c85_matches_from_end s pat hp _).1 rfl)
  have hl : (matchIndices s pat).length = gs.length - 1 := by rw [h2, gapEnds_length]
  have fewer : ∀ n k, k ≤ n → Times pat n s → Times pat k s := by
    intro n
    induction n with
    | zero => intro k hk _; rw [Nat.le_zero.1 hk]; exact .zero _
    | succ n ih =>
      intro k hk h
      rcases Nat.lt_or_ge n k with hlt | hge
      · rw [show k = n + 1 by omega]; exact h
      · refine ih k hge ?_
        obtain ⟨a, b, rfl, h'⟩ := times_last h
        exact times_append h' _
  refine ⟨?_, fun k => ⟨fun h => hl ▸ h4 k h, fun h => fewer _ k h (hl ▸ h3)⟩⟩
  rw [hl]
  exact Nat.le_antisymm (h6 _ h3) (h4 _ h5)

example : (matchIndices ['a', 'a', 'é', 'a', 'a', 'a'] ['a', 'a']).length = 2 ∧
    (rmatchIndices ['a', 'a', 'é', 'a', 'a', 'a'] ['a', 'a']).length = 2 := by decide +kernel

end Verif
