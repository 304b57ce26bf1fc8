import Verif.Props.Strings

/-!
# C92: where the reported position is exact
-/

namespace Verif
open Ucd Spec

/-- C92 for `TextStr::from_text`: if the scalar at the reported position may end a text, the position is exact: no longer prefix of
the string is accepted. -/
theorem c92_exact_borrowed_partial (s : List Char) (n : Nat) (h : fromText (isBasicText ucd15) s = .err n) :
    ∃ p c q, s = p ++ c :: q ∧ n = (encode p).length ∧ fromText (isBasicText ucd15) p = .ok p ∧
      (isEnd c = true → ∀ x y, s = x ++ y → fromText (isBasicText ucd15) x = .ok x → x.length ≤ p.length) := by
  obtain ⟨m, h1, p, c, q, rfl, rfl, h3, h4⟩ := c07_valid_up_to_borrowed s (by rw [h]; simp)
  rw [h] at h1
  injection h1 with h1
  refine ⟨p, c, q, rfl, h1, fromText_ok h3, fun he x y hs hx => ?_⟩
  apply Classical.byContradiction
  intro hlt
  obtain ⟨z, rfl⟩ : p ++ [c] <+: x :=
    List.prefix_of_prefix_length_le (l₃ := p ++ c :: q) ⟨q, by simp⟩ ⟨y, hs.symm⟩ (by simp; omega)
  obtain ⟨k1, -, k3⟩ := text_iff.1 (fromText_ok_iff.1 hx).1
  have : isBasicText ucd15 (p ++ [c]) = true := by
    refine text_iff.2 ⟨fun d hd => k1 d ?_, by simpa using he, substr_prefix textLaws15 k3⟩
    cases p <;> simpa using hd
  rw [this] at h4
  simp at h4

/-- C92 for `TextString::from_text`: the scalar at the reported position is the first that cannot be accepted exactly if it is
forbidden, is at the start and may not be there, or may not end a text; in the first two cases no longer prefix is accepted.
Otherwise the text up to it is only not normalized. -/
theorem c92_exact_owned (s : List Char) (n : Nat) (h : fromTextOwned ucd15 (isBasicText ucd15) s = .err n) :
    ∃ p c q, s = p ++ c :: q ∧ n = (encode p).length ∧ fromText (isBasicText ucd15) p = .ok p ∧
      ((∀ t, fromTextOwned ucd15 (isBasicText ucd15) (p ++ [c]) ≠ .ok t) ↔
        okChar c = false ∨ (p = [] ∧ isStart ucd15 c = false) ∨ isEnd c = false) ∧
      (okChar c = false ∨ (p = [] ∧ isStart ucd15 c = false) → ∀ x y, s = x ++ y → ∀ t, fromTextOwned ucd15 (isBasicText ucd15) x = .ok t →
        x.length ≤ p.length) ∧
      (isEnd c = true → okChar c = true → (p = [] → isStart ucd15 c = true) → ucd15.isNfcStreamSafe (p ++ [c]) = false) := by
  obtain ⟨m, h1, p, c, q, rfl, rfl, h3, h4⟩ := c07_valid_up_to_owned s (fun t ht => by rw [h] at ht; simp at ht)
  rw [h] at h1
  injection h1 with h1
  obtain ⟨k1, k2, k3⟩ := text_iff.1 h3
  have hok := (substr_iff.1 k3).1
  have hhead : ∀ (z : List Char), (∀ d ∈ (p ++ c :: z).head?, isStart ucd15 d = true) ↔ (p = [] → isStart ucd15 c = true) := by
    intro z
    cases p with
    | nil => simp
    | cons d p => simpa using k1 d (by simp)
  refine ⟨p, c, q, rfl, h1, fromText_ok h3, ?_, ?_, fun e1 e2 e3 => ?_⟩
  · have : (∀ t, fromTextOwned ucd15 (isBasicText ucd15) (p ++ [c]) ≠ .ok t) ↔ ¬ Acceptable ucd15 (p ++ [c]) :=
      ⟨fun hn ha => hn _ ((owned_ok_iff isBasicText_nil).2 ⟨ha, rfl⟩), fun hn t ht => hn ((owned_ok_iff isBasicText_nil).1 ht).1⟩
    rw [this, Acceptable, hhead []]
    have e1 : (∀ d ∈ p ++ [c], okChar d = true) ↔ okChar c = true := by
      simp only [List.mem_append, List.mem_singleton]
      exact ⟨fun h => h c (Or.inr rfl), fun h d hd => hd.elim (hok d) (fun e => e ▸ h)⟩
    have e2 : (∀ d ∈ (p ++ [c]).getLast?, isEnd d = true) ↔ isEnd c = true := by simp
    rw [e1, e2]
    cases okChar c <;> cases isStart ucd15 c <;> cases isEnd c <;> simp
  · intro hc x y hs t ht
    apply Classical.byContradiction
    intro hlt
    obtain ⟨z, rfl⟩ : p ++ [c] <+: x :=
      List.prefix_of_prefix_length_le (l₃ := p ++ c :: q) ⟨q, by simp⟩ ⟨y, hs.symm⟩ (by simp; omega)
    obtain ⟨a1, a2, -⟩ := ((owned_ok_iff isBasicText_nil).1 ht).1
    rcases hc with hc | ⟨hp, hc⟩
    · rw [a1 c (by simp)] at hc; simp at hc
    · subst hp
      rw [a2 c (by simp)] at hc; simp at hc
  · cases hn : ucd15.isNfcStreamSafe (p ++ [c]) with
    | false => rfl
    | true =>
      have : isBasicText ucd15 (p ++ [c]) = true := by
        refine text_iff.2 ⟨(hhead []).2 e3, by simpa using e1, substr_iff.2 ⟨fun d hd => ?_, hn⟩⟩
        simp only [List.mem_append, List.mem_singleton] at hd
        rcases hd with hd | rfl
        · exact hok d hd
        · exact e2
      rw [this] at h4
      simp at h4

example : fromText (isBasicText ucd15) ['a', 'e', '́', 'b'] = .err 2 ∧ isEnd '́' = true := by decide +kernel
example : fromTextOwned ucd15 (isBasicText ucd15) ['a', 'é', '͸', '\x00', 'b'] = .err 5 ∧ okChar '\x00' = false := by decide +kernel

end Verif
