import Verif.Strings

/-!
# Slices and the search for the error position
-/

namespace Verif

/-! ## Slices -/

theorem take_encode {x y : List Char} : (encode (x ++ y)).take (encode x).length = encode x := by
  rw [encode_append]; simp

theorem drop_encode {x y : List Char} : (encode (x ++ y)).drop (encode x).length = encode y := by
  rw [encode_append]; simp

/-- A prefix is determined by its length in bytes. -/
theorem prefix_unique {x y x' y' : List Char} (h : x ++ y = x' ++ y') (hl : (encode x).length = (encode x').length) : x = x' ∧ y = y' := by
  have h1 := take_encode (x := x) (y := y)
  rw [h, hl, take_encode] at h1
  have := encode_injective h1
  subst this
  exact ⟨rfl, List.append_cancel_left h⟩

theorem sliceTo_append (x y : List Char) : sliceTo (x ++ y) (encode x).length = some x := by
  unfold sliceTo
  rw [if_pos (isCharBoundary_iff.2 ⟨x, y, rfl, rfl⟩), take_encode, fromUtf8_encode]

theorem sliceFrom_append (x y : List Char) : sliceFrom (x ++ y) (encode x).length = some y := by
  unfold sliceFrom
  rw [if_pos (isCharBoundary_iff.2 ⟨x, y, rfl, rfl⟩), drop_encode, fromUtf8_encode]

theorem sliceTo_iff {s p : List Char} {n : Nat} : sliceTo s n = some p ↔ ∃ q, s = p ++ q ∧ (encode p).length = n := by
  constructor
  · intro h
    have hb : isCharBoundary s n = true := by
      unfold sliceTo at h; split at h
      · assumption
      · simp at h
    obtain ⟨x, y, rfl, rfl⟩ := isCharBoundary_iff.1 hb
    rw [sliceTo_append] at h
    injection h with h
    exact ⟨y, by rw [h], by rw [h]⟩
  · rintro ⟨q, rfl, rfl⟩; exact sliceTo_append p q

theorem sliceFrom_iff {s q : List Char} {n : Nat} : sliceFrom s n = some q ↔ ∃ p, s = p ++ q ∧ (encode p).length = n := by
  constructor
  · intro h
    have hb : isCharBoundary s n = true := by
      unfold sliceFrom at h; split at h
      · assumption
      · simp at h
    obtain ⟨x, y, rfl, rfl⟩ := isCharBoundary_iff.1 hb
    rw [sliceFrom_append] at h
    injection h with h
    exact ⟨x, by rw [h], rfl⟩
  · rintro ⟨p, rfl, rfl⟩; exact sliceFrom_append p q

theorem slice_iff {s m : List Char} {a b : Nat} :
    slice s a b = some m ↔ ∃ p q, s = p ++ m ++ q ∧ (encode p).length = a ∧ (encode (p ++ m)).length = b := by
  constructor
  · intro h
    unfold slice at h
    split at h
    · rename_i hb
      obtain ⟨hab, h1, h2⟩ := hb
      obtain ⟨x, y, rfl, rfl⟩ := isCharBoundary_iff.1 h1
      obtain ⟨z, w, hz, rfl⟩ := isCharBoundary_iff.1 h2
      have hx : ∃ m', z = x ++ m' := by
        rcases List.append_eq_append_iff.1 hz with ⟨t, rfl, -⟩ | ⟨t, rfl, ht⟩
        · exact ⟨t, rfl⟩
        · rw [encode_append, List.length_append] at hab
          have h0 := length_le_encode t
          have : t = [] := List.length_eq_zero_iff.1 (by omega)
          subst this; exact ⟨[], by simp⟩
      obtain ⟨m', rfl⟩ := hx
      rw [hz, take_encode, drop_encode, fromUtf8_encode] at h
      injection h with h
      subst h
      exact ⟨x, w, hz, rfl, rfl⟩
    · simp at h
  · rintro ⟨p, q, rfl, rfl, rfl⟩
    unfold slice
    rw [if_pos]
    · rw [take_encode, drop_encode, fromUtf8_encode]
    · refine ⟨?_, isCharBoundary_iff.2 ⟨p, m ++ q, by simp, rfl⟩, isCharBoundary_iff.2 ⟨p ++ m, q, rfl, rfl⟩⟩
      rw [encode_append, List.length_append]; omega

theorem isCharBoundary_zero (s : List Char) : isCharBoundary s 0 = true := isCharBoundary_iff.2 ⟨[], s, rfl, rfl⟩

theorem isCharBoundary_len (s : List Char) : isCharBoundary s (encode s).length = true :=
  isCharBoundary_iff.2 ⟨s, [], by simp, rfl⟩

theorem isCharBoundary_le {s : List Char} {k : Nat} (h : isCharBoundary s k = true) : k ≤ (encode s).length := by
  obtain ⟨x, y, rfl, rfl⟩ := isCharBoundary_iff.1 h
  rw [encode_append, List.length_append]; omega

/-! ## The search -/

theorem boundaryDown_spec (s : List Char) : ∀ m : Nat, boundaryDown s m ≤ m ∧ isCharBoundary s (boundaryDown s m) = true ∧
    ∀ k, k ≤ m → isCharBoundary s k = true → k ≤ boundaryDown s m := by
  intro m
  induction m with
  | zero => exact ⟨Nat.le_refl _, isCharBoundary_zero s, fun k h _ => h⟩
  | succ m ih =>
    rw [boundaryDown]
    split
    · rename_i h; exact ⟨Nat.le_refl _, h, fun k h _ => h⟩
    · rename_i hn
      refine ⟨by omega, ih.2.1, ?_⟩
      intro k hk hb
      rcases Nat.lt_or_ge m k with h | h
      · have : k = m + 1 := by omega
        subst this; exact absurd hb hn
      · exact ih.2.2 k h hb

theorem boundaryUp_spec (s : List Char) : ∀ (fuel m : Nat), m ≤ (encode s).length → (encode s).length < fuel + m →
    ∃ k, boundaryUp s fuel m = some k ∧ m ≤ k ∧ isCharBoundary s k = true ∧ ∀ j, m ≤ j → isCharBoundary s j = true → k ≤ j := by
  intro fuel
  induction fuel with
  | zero => intro m h1 h2; omega
  | succ fuel ih =>
    intro m h1 h2
    rw [boundaryUp]
    split
    · rename_i h; exact ⟨m, rfl, Nat.le_refl _, h, fun j hj _ => hj⟩
    · rename_i hn
      have hlt : m ≠ (encode s).length := fun h => hn (h ▸ isCharBoundary_len s)
      obtain ⟨k, h3, h4, h5, h6⟩ := ih (m + 1) (by omega) (by omega)
      refine ⟨k, h3, by omega, h5, ?_⟩
      intro j hj hb
      have : m ≠ j := fun h => hn (h ▸ hb)
      exact h6 j (by omega) hb

/-- The result of the search: a valid prefix that stops being valid with the next scalar, or with the whole string. -/
theorem validLoop_spec (valid : List Char → Bool) (s : List Char) : ∀ (fuel b e : Nat), b < e → e - b < fuel →
    ∀ (x y : List Char), s = x ++ y → (encode x).length = b → valid x = true →
    ∀ (x' y' : List Char), s = x' ++ y' → (encode x').length = e → (valid x' = false ∨ y' = []) →
    ∃ p c q, s = p ++ c :: q ∧ validLoop valid s fuel b e = some (encode p).length ∧ valid p = true ∧
      (valid (p ++ [c]) = false ∨ q = []) := by
  intro fuel
  induction fuel with
  | zero => intro b e h1 h2; omega
  | succ fuel ih =>
    intro b e h1 h2 x y hx hxl hxv x' y' hx' hxl' hxv'
    have hbs := isCharBoundary_iff.2 ⟨x, y, hx, hxl⟩
    have hes := isCharBoundary_iff.2 ⟨x', y', hx', hxl'⟩
    rw [validLoop, if_neg (by omega)]
    -- the step from a position strictly between
    have step : ∀ mid, b < mid → mid < e → isCharBoundary s mid = true →
        ∃ p c q, s = p ++ c :: q ∧ (match sliceTo s mid with
            | none => none
            | some p => if valid p then validLoop valid s fuel mid e else validLoop valid s fuel b mid) = some (encode p).length ∧
          valid p = true ∧ (valid (p ++ [c]) = false ∨ q = []) := by
      intro mid hm1 hm2 hm3
      obtain ⟨m, m', hms, hml⟩ := isCharBoundary_iff.1 hm3
      rw [sliceTo_iff.2 ⟨m', hms, hml⟩]
      simp only
      split
      · rename_i hv
        exact ih mid e hm2 (by omega) m m' hms hml hv x' y' hx' hxl' hxv'
      · rename_i hv
        exact ih b mid hm1 (by omega) x y hx hxl hxv m m' hms hml (Or.inl (by simpa using hv))
    obtain ⟨d1, d2, d3⟩ := boundaryDown_spec s (b + (e - b) / 2)
    have hbd := d3 b (by omega) hbs
    simp only
    split
    · rename_i hmid
      obtain ⟨k, k1, k2, k3, k4⟩ := boundaryUp_spec s ((encode s).length + 1) (b + (e - b) / 2 + 1)
        (by have := isCharBoundary_le hes; omega) (by omega)
      rw [k1]
      simp only
      have hke := k4 e (by omega) hes
      split
      · rename_i hk
        -- nothing between
        have hnone : ∀ j, isCharBoundary s j = true → b < j → e ≤ j := by
          intro j hj hbj
          rcases Nat.lt_or_ge (b + (e - b) / 2) j with h | h
          · have := k4 j (by omega) hj; omega
          · have := d3 j h hj; omega
        cases y with
        | nil =>
          exfalso
          have := isCharBoundary_le hes
          rw [hx, List.append_nil, hxl] at this; omega
        | cons c q =>
          have hnx : isCharBoundary s (encode (x ++ [c])).length = true :=
            isCharBoundary_iff.2 ⟨x ++ [c], q, by simp [hx], rfl⟩
          have hlen : (encode (x ++ [c])).length = b + utf8Len c := by
            rw [encode_append, List.length_append, hxl, encode_cons, List.length_append, encodeChar_length]; rfl
          have hpos := utf8Len_pos c
          have h5 := hnone _ hnx (by omega)
          have h6 : (encode (x ++ [c])).length = e := by
            rcases List.append_eq_append_iff.1 (hx.symm.trans hx') with ⟨t, ht, ht'⟩ | ⟨t, ht, ht'⟩
            · cases t with
              | nil =>
                exfalso; rw [List.append_nil] at ht; rw [ht, hxl] at hxl'; omega
              | cons d t =>
                simp only [List.cons_append, List.cons.injEq] at ht'
                obtain ⟨rfl, -⟩ := ht'
                have hsub : (encode x').length = (encode (x ++ [c])).length + (encode t).length := by
                  rw [ht, ← List.length_append, ← encode_append]; simp
                omega
            · exfalso
              have : b = e + (encode t).length := by
                rw [← hxl, ← hxl', ht, encode_append, List.length_append]
              omega
          have h7 := prefix_unique (x := x ++ [c]) (y := q) (x' := x') (y' := y') (by rw [← hx', hx]; simp) (by rw [h6, hxl'])
          refine ⟨x, c, q, hx, by rw [hxl], hxv, ?_⟩
          rw [h7.1, h7.2]; exact hxv'
      · rename_i hk
        exact step k (by omega) (by omega) k3
    · rename_i hmid
      exact step _ (by omega) (by omega) d2

theorem validUpTo_nil (valid : List Char → Bool) : validUpTo valid [] = some 0 := rfl

/-- `compute_valid_up_to` of a non-empty string. -/
theorem validUpTo_spec {valid : List Char → Bool} (h0 : valid [] = true) {s : List Char} (hs : s ≠ []) :
    ∃ p c q, s = p ++ c :: q ∧ validUpTo valid s = some (encode p).length ∧ valid p = true ∧
      (valid (p ++ [c]) = false ∨ q = []) := by
  unfold validUpTo
  have hpos : 0 < (encode s).length := by
    have := length_le_encode s
    have := List.length_pos_iff.2 hs
    omega
  exact validLoop_spec valid s _ 0 _ hpos (by omega) [] s rfl rfl h0 s [] (by simp) rfl (Or.inr rfl)

/-- The same for an invalid string: adding the next scalar makes the prefix invalid. -/
theorem validUpTo_invalid {valid : List Char → Bool} (h0 : valid [] = true) {s : List Char} (hs : valid s = false) :
    ∃ p c q, s = p ++ c :: q ∧ validUpTo valid s = some (encode p).length ∧ valid p = true ∧ valid (p ++ [c]) = false := by
  have hne : s ≠ [] := by rintro rfl; rw [h0] at hs; simp at hs
  obtain ⟨p, c, q, h1, h2, h3, h4⟩ := validUpTo_spec h0 hne
  refine ⟨p, c, q, h1, h2, h3, ?_⟩
  rcases h4 with h4 | rfl
  · exact h4
  · rw [← h1]; exact hs

theorem validUpTo_ne_none {valid : List Char → Bool} (h0 : valid [] = true) (s : List Char) : ∃ n, validUpTo valid s = some n := by
  by_cases hs : s = []
  · subst hs; exact ⟨0, rfl⟩
  · obtain ⟨p, c, q, -, h, -⟩ := validUpTo_spec h0 hs
    exact ⟨_, h⟩

end Verif
