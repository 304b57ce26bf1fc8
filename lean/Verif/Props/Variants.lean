import Verif.Variants
import Verif.Props.Cjk

/-!
# C102, without conditions: the ideographs a text names
-/

namespace Verif
open Ucd Spec Tables

/-- C102: what a reader delivers names the ideographs that its source names outside escape sequences, all of them and in the same
order, and no others.  A source names an ideograph by the scalar or by its variation sequence. -/
theorem c102_named (nel lsps : Bool) (chunks : List (List Char)) (last : List Char) (lens : List Nat)
    (hb : BomSafe chunks last) (hc : Completes ucd15 nel lsps (script chunks last) lens) :
    named '\n' (output ucd15 nel lsps (script chunks last) lens) = named '\n' (spoken finCan (chunks.flatten ++ last)) := by
  obtain ⟨r, n, h1, h2⟩ := hc
  obtain ⟨-, -, -, segs, h3, h4, -⟩ := run_script textLaws15 hb h1 h2
  rw [output, h4, named_segs segs _ _ .rfl', ← h3, named_translate, named_dropBom]

/-- C102: the same for the lossy conversion of strings. -/
theorem c102_named_lossy (chunks : List (List Char)) (last : List Char) (lens : Nat → Nat) (t : List Char)
    (hb : SliceReads chunks last) (hc : Converts chunks last lens t) :
    named '\n' t = named '\n' (spoken finCan (chunks.flatten ++ last)) := by
  obtain ⟨m, text, h1, h2⟩ := read_of_converts hc
  obtain ⟨segs, h3, h4, -⟩ := lossy_run textLaws15 hb h1
  rw [h2] at h4
  have h4 := Option.some.inj h4
  have : ∀ p, SameBase p '\n' → named p (segs.flatMap (normChain ucd15)) = named '\n' (spoken finCan (chunks.flatten ++ last)) := fun p hp => by
    rw [named_segs segs _ _ hp, h3, named_lossyText, named_dropBom]
  rw [h4]
  unfold bomPrefix
  split
  · rw [List.singleton_append, named, show isSelector WJ = false by decide, show isCompat WJ = false by decide,
      this WJ (sameBase_of (by decide) (by decide))]
    simp
  · exact this _ .rfl'

/-- C102: the owned strict conversions keep the variation sequences of the string they accept. -/
theorem c102_named_owned (s t : List Char)
    (h : fromTextOwned ucd15 (isBasicText ucd15) s = .ok t ∨ fromTextOwned ucd15 (isBasicTextSubstr ucd15) s = .ok t) :
    named '\n' t = named '\n' s := by
  have ht : t = normChain ucd15 s := by
    rcases h with h | h
    · exact ((owned_ok_iff isBasicText_nil).1 h).2
    · exact ((owned_ok_iff isBasicTextSubstr_nil).1 h).2
  rw [ht]
  exact (named_normChain _ s (Nat.le_refl _) _ _ .rfl').1

/-- C102: so sources that name different ideographs, or in another order, never give the same text. -/
theorem c102_named_information (nel lsps nel' lsps' : Bool) (chunks chunks' : List (List Char)) (last last' : List Char) (lens lens' : List Nat)
    (hb : BomSafe chunks last) (hc : Completes ucd15 nel lsps (script chunks last) lens)
    (hb' : BomSafe chunks' last') (hc' : Completes ucd15 nel' lsps' (script chunks' last') lens')
    (h : output ucd15 nel lsps (script chunks last) lens = output ucd15 nel' lsps' (script chunks' last') lens') :
    named '\n' (spoken finCan (chunks.flatten ++ last)) = named '\n' (spoken finCan (chunks'.flatten ++ last')) := by
  rw [← c102_named nel lsps chunks last lens hb hc, h, c102_named nel' lsps' chunks' last' lens' hb' hc']

/-- C102: what it means to name an ideograph by its variation sequence. -/
theorem c102_named_means (prev c : Char) (r : List Char) :
    (isCompat c = true → named prev (c :: r) = c :: named c r) ∧
    (∀ i, isSelector c = true → isCompat i = true → variantOf i = (prev, c) → named prev (c :: r) = i :: named c r) ∧
    (isCompat c = false → (∀ i, isSelector c = true → isCompat i = true → variantOf i ≠ (prev, c)) → named prev (c :: r) = named c r) := by
  refine ⟨fun h => by simp [named, h], fun i h1 h2 h3 => ?_, fun h1 h2 => ?_⟩
  · simp [named, (selector_not_compat h1).1, h1, (unvariant_iff h1).2 ⟨h2, h3⟩]
  · cases hs : isSelector c with
    | false => simp [named, h1, hs]
    | true =>
      have : unvariant prev c = none := by
        cases hu : unvariant prev c with
        | none => rfl
        | some i => exact absurd ((unvariant_iff hs).1 hu).2 (h2 i hs ((unvariant_iff hs).1 hu).1)
      simp [named, h1, hs, this]

/-- An ideograph, the sequence of another, a selector that makes none, a sequence made by removing an escape sequence, and an
ideograph in an escape sequence. -/
example : named '\n' (spoken finCan ['樂', '樂', '︁', 'a', '︀', '樂', '\x1b', '[', 'm', '︂', '\x1b', ']', '樂', '\x07']) =
    ['樂', '樂', '樂'] := by decide +kernel

example : BomSafe [['樂', '樂', '︁', 'a']] ['︀', '樂', '\x1b', '[', 'm', '︂'] ∧
    Completes ucd15 false false (script [['樂', '樂', '︁', 'a']] ['︀', '樂', '\x1b', '[', 'm', '︂']) [1000, 1000, 1000] :=
  ⟨by unfold BomSafe; decide, completes_of (by decide +kernel)⟩

example : fromTextOwned ucd15 (isBasicText ucd15) ['e', '́', '樂', '︁'] = .ok ['é', '樂', '︁'] := by decide +kernel

end Verif
