import Verif.JoinTheory
import Verif.Props.Strings

/-!
# Exactly when texts may be joined (C12, C13)
-/

namespace Verif
open Ucd Spec

/-- A Hangul leading consonant before a vowel, or a syllable without trailing consonant before a trailing consonant (Unicode 3.12). -/
def Spec.HangulJoin (x c : Char) : Prop :=
  ((0x1100 ≤ x.toNat ∧ x.toNat ≤ 0x1112) ∧ 0x1161 ≤ c.toNat ∧ c.toNat ≤ 0x1175) ∨
  ((0xac00 ≤ x.toNat ∧ x.toNat ≤ 0xd7a3 ∧ (x.toNat - 0xac00) % 28 = 0) ∧ 0x11a8 ≤ c.toNat ∧ c.toNat ≤ 0x11c2)

theorem joins_iff {x c : Char} (hc : isStart ucd15 c = true) : Joins ucd15 x c ↔ HangulJoin x c := by
  constructor
  · rintro ⟨d, ds, r, h1, h2⟩
    have hj := textLaws15.start_second c hc d ds h1 ⟨x, r, h2⟩
    have hr : (0x1161 ≤ c.toNat ∧ c.toNat ≤ 0x1175) ∨ (0x11a8 ≤ c.toNat ∧ c.toNat ≤ 0x11c2) := by
      unfold isJamoVT at hj
      rw [inRanges_iff] at hj
      simp at hj; omega
    have hd := head_toNat h1
    rw [jamo_decomp (jamo_of (by omega))] at hd
    injection hd with hd _
    rw [isStart15] at hc
    rcases composeN_cases (by have := validN_lt (validN_toNat d); omega) (compose_toNat h2) with ⟨h3, h4, -⟩ | ⟨h3, h4, h5, -⟩ | ⟨h3, -⟩
    · left; omega
    · right
      rw [isSyl_iff] at h3; omega
    · exfalso
      have hv := validN_lt (validN_toNat d)
      have := Tree.find_all start_second h3
      rw [show (x.toNat * 0x200000 + d.toNat) % 0x200000 = d.toNat by omega, ← hd, hc] at this
      simp at this
  · intro h
    have hd : ucd15.decomp c = [c] := by
      show (decompN c.toNat).map Char.ofNat = [c]
      rw [jamo_decomp (jamo_of (by rcases h with h | h <;> omega))]
      simp
    have hk : (composeN x.toNat c.toNat).isSome = true := by
      unfold composeN
      rcases h with ⟨h1, h2⟩ | ⟨h1, h2⟩
      · simp [ble_iff.2 h1.1, ble_iff.2 h1.2, ble_iff.2 h2.1, ble_iff.2 h2.2]
      · have h3 : isSyl x.toNat = true := isSyl_iff.2 (by omega)
        rw [h3, ble_iff.2 h2.1, ble_iff.2 h2.2, beq_iff.2 h1.2.2]
        cases Nat.ble 0x1100 x.toNat && Nat.ble x.toNat 0x1112 && (Nat.ble 0x1161 c.toNat && Nat.ble c.toNat 0x1175) <;> simp
    obtain ⟨r, hr⟩ := Option.isSome_iff_exists.1 hk
    exact ⟨c, [], Char.ofNat r, hd, by show (composeN x.toNat c.toNat).map Char.ofNat = _; rw [hr]; rfl⟩

/-- C12, exactly: appending gives Basic Text unless the last scalar of the one and the first of the other make a Hangul syllable. -/
theorem c12_push_iff (a s : List Char) (ha : isBasicText ucd15 a = true) (hs : isBasicText ucd15 s = true) :
    isBasicText ucd15 (pushText a s) = true ↔ ∀ x ∈ a.getLast?, ∀ c ∈ s.head?, ¬ HangulJoin x c := by
  obtain ⟨a1, a2, a3⟩ := text_iff.1 ha
  obtain ⟨s1, s2, s3⟩ := text_iff.1 hs
  rcases pushText_cases a s with ⟨a', r, rfl, rfl, -⟩ | ⟨-, h⟩
  · refine ⟨fun _ x hx c hc => ?_, fun _ => c12_push_valid_partial _ _ ha hs (by simp; decide)⟩
    simp only [List.getLast?_append, List.getLast?_singleton, Option.some_or, Option.mem_def, Option.some.injEq] at hx
    subst hx
    unfold HangulJoin
    have : CGJ.toNat = 0x34f := by decide
    omega
  · rw [h]
    have key := substr_append_iff textLaws15 a3 s3 s1
    constructor
    · intro ht x hx c hc hj
      exact key.1 (text_iff.1 ht).2.2 x hx c hc ((joins_iff (s1 c hc)).2 hj)
    · intro hn
      refine text_iff.2 ⟨?_, ?_, key.2 fun x hx c hc hj => hn x hx c hc ((joins_iff (s1 c hc)).1 hj)⟩
      · intro c hc
        rcases mem_head?_append hc with hc | hc
        · exact a1 c hc
        · exact s1 c hc
      · intro c hc
        rcases mem_getLast?_append hc with hc | hc
        · exact a2 c hc
        · exact s2 c hc

example : isBasicText ucd15 ['각'] = true ∧ isBasicText ucd15 ['ᅡ'] = true ∧ ¬ HangulJoin '각' 'ᅡ' ∧ HangulJoin '가' 'ᆨ' ∧
    HangulJoin 'ᄀ' 'ᅡ' := by
  refine ⟨by decide +kernel, by decide +kernel, ?_, ?_, ?_⟩ <;> unfold HangulJoin <;> decide

/-- C12: texts that end with a newline, such as those a reader delivers, can always be followed by a text. -/
theorem c12_append_newline (a s : List Char) (ha : isBasicText ucd15 a = true) (hs : isBasicText ucd15 s = true)
    (hn : a = [] ∨ a.getLast? = some '\n') : isBasicText ucd15 (a ++ s) = true ∧ pushText a s = a ++ s := by
  refine ⟨text_append_newline textLaws15 ha hs hn, ?_⟩
  rcases pushText_cases a s with ⟨a', r, rfl, -, -⟩ | ⟨-, h⟩
  · rcases hn with hn | hn
    · simp at hn
    · rw [List.getLast?_append] at hn
      exact absurd hn (by simp; decide)
  · exact h

/-- C13, exactly: repeating a text at least twice gives Basic Text unless its last and first scalars make a Hangul syllable. -/
theorem c13_repeat_iff (s : List Char) (h : isBasicText ucd15 s = true) (n : Nat) (hn : 2 ≤ n) :
    isBasicText ucd15 (repeatText s n) = true ↔ ∀ x ∈ s.getLast?, ∀ c ∈ s.head?, ¬ HangulJoin x c := by
  obtain ⟨m, rfl⟩ : ∃ m, n = m + 2 := ⟨n - 2, by omega⟩
  rw [repeat_iff textLaws15 h m]
  have h1 := (text_iff.1 h).1
  constructor
  · intro hj x hx c hc hh
    exact hj x hx c hc ((joins_iff (h1 c hc)).2 hh)
  · intro hj x hx c hc hh
    exact hj x hx c hc ((joins_iff (h1 c hc)).1 hh)

end Verif
