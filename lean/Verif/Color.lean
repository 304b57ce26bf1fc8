import Verif.Cjk
import Verif.WriterModes
import Verif.SpecLaws
import Verif.JoinTheory
import Verif.Tables.Color

/-!
# Color sequences

What `docs/Terminal.md` says a color sequence is, what becomes of one when the text around it is normalized, and what is left of
a text without them.
-/

namespace Verif
open Ucd Tables

namespace Spec

/-- A number from 0 to 255 in decimal (leading zeros allowed, the document does not say). -/
def Byte255 (s : List Char) : Prop :=
  s ≠ [] ∧ (∀ c ∈ s, 0x30 ≤ c.toNat ∧ c.toNat ≤ 0x39) ∧ s.foldl (fun n c => 10 * n + (c.toNat - 48)) 0 ≤ 255

/-- `␛[…m` with up to 16 codes, or an RGB color (`docs/Terminal.md:147-201`). -/
inductive DocColor : List Char → Prop
  | codes (cs : List (List Char)) : cs.length ≤ 16 → (∀ c ∈ cs, c ∈ colorCodes) → DocColor (ESC :: '[' :: [';'].intercalate cs ++ ['m'])
  | rgb (fg : Char) (r g b : List Char) : fg = '3' ∨ fg = '4' → Byte255 r → Byte255 g → Byte255 b →
      DocColor (ESC :: '[' :: ([fg, '8', ';', '2', ';'] ++ r ++ [';'] ++ g ++ [';'] ++ b) ++ ['m'])

/-- The text without its color sequences: everything from U+1B to the next `m` is left out. -/
def uncolorGo : Bool → List Char → List Char
  | _, [] => []
  | false, c :: s => if c = ESC then uncolorGo true s else c :: uncolorGo false s
  | true, c :: s => uncolorGo (decide (c ≠ 'm')) s

def uncolor (s : List Char) : List Char := uncolorGo false s

/-- A digit or a semicolon. -/
def isCode (c : Char) : Bool := (between 0x30 0x39 c) || c = ';'

end Spec
open Spec

/-! ## The document's sequences -/

theorem codes_digits : colorCodes.all (fun c => c.all isCode) = true := by decide +kernel

theorem intercalate_mem {sep : List Char} {l : List (List Char)} {c : Char} (h : c ∈ sep.intercalate l) : c ∈ sep ∨ ∃ x ∈ l, c ∈ x := by
  rw [List.intercalate, List.mem_flatten] at h
  obtain ⟨x, hx, hc⟩ := h
  have : ∀ l : List (List Char), x ∈ l.intersperse sep → x = sep ∨ x ∈ l := by
    intro l
    induction l with
    | nil => simp
    | cons a l ih =>
      cases l with
      | nil => intro h; simp at h; simp [h]
      | cons b l =>
        intro h
        simp only [List.intersperse, List.mem_cons] at h ih ⊢
        rcases h with h | h | h
        · exact Or.inr (Or.inl h)
        · exact Or.inl h
        · rcases ih h with h | h
          · exact Or.inl h
          · exact Or.inr (Or.inr h)
  rcases this l hx with rfl | h
  · exact Or.inl hc
  · exact Or.inr ⟨x, h, hc⟩

theorem byte_code {s : List Char} (h : Byte255 s) : ∀ c ∈ s, isCode c = true := by
  intro c hc
  have := h.2.1 c hc
  simp [isCode, between, this]

/-- All the sequences of the document are `ESC [ … m` with digits and semicolons. -/
theorem docColor_shape {e : List Char} (h : DocColor e) : ∃ ps, e = ESC :: '[' :: ps ++ ['m'] ∧ ∀ p ∈ ps, isCode p = true := by
  cases h with
  | codes cs h1 h2 =>
    refine ⟨_, rfl, fun p hp => ?_⟩
    rcases intercalate_mem hp with h | ⟨x, hx, hp⟩
    · simp at h; subst h; decide
    · exact List.all_eq_true.1 (List.all_eq_true.1 codes_digits x (h2 x hx)) p hp
  | rgb fg r g b h hr hg hb =>
    refine ⟨_, rfl, fun p hp => ?_⟩
    simp only [List.mem_append, List.mem_cons, List.not_mem_nil, or_false] at hp
    have hr := byte_code hr p
    have hg := byte_code hg p
    have hb := byte_code hb p
    rcases hp with ((((hp | hp) | hp) | hp) | hp) | hp
    · rcases hp with rfl | rfl | rfl | rfl | rfl
      · rcases h with rfl | rfl <;> decide
      all_goals decide
    · exact hr hp
    · subst hp; decide
    · exact hg hp
    · subst hp; decide
    · exact hb hp

/-! ## Scalars of a color sequence divide -/

/-- The scalars between U+20 and U+3F, and `[`, that are not composed with anything: all but `<`, `=`, `>`. -/
def colorPart (n : Nat) : Bool := (Nat.ble 0x20 n && Nat.ble n 0x3b) || Nat.beq n 0x3f || Nat.beq n 0x5b

theorem compose_colorPart : composeTree.all (fun key _ => !colorPart (key / 0x200000)) = true := by decide +kernel

theorem colorPart_facts : rangeAll (fun n => !colorPart n || (Nat.beq (cccN n) 0 && decompN n == [n] && QC.beq (qcN n) .yes && classN n == [0, 0, 1])) 0 0x60 = true := by
  decide +kernel

theorem divides_color {c : Char} (h : colorPart c.toNat = true) : Divides ucd15 c := by
  have hr : (0x20 ≤ c.toNat ∧ c.toNat ≤ 0x3b) ∨ c.toNat = 0x3f ∨ c.toNat = 0x5b := by
    simp only [colorPart, Bool.or_eq_true, Bool.and_eq_true, Nat.ble_eq, Nat.beq_eq] at h
    omega
  have hf := rangeAll_mem colorPart_facts (n := c.toNat) (by omega) (by omega)
  rw [h] at hf
  simp only [Bool.not_true, Bool.false_or, Bool.and_eq_true, beq_iff_eq, qcbeq_iff] at hf
  obtain ⟨⟨⟨h2, h3⟩, h4⟩, h5⟩ := hf
  have hd : ucd15.decomp c = [c] := by
    show (decompN c.toNat).map Char.ofNat = [c]
    rw [h3]; simp
  refine ⟨Nat.eq_of_beq_eq_true h2, hd, fun x => ?_, (lawful15.qc_yes c h4).2 c [] hd, ?_, ?_, ?_⟩
  · cases hx : ucd15.compose c x with
    | none => rfl
    | some r =>
      exfalso
      have hb := validN_lt (validN_toNat x)
      rcases composeN_cases (by omega) (compose_toNat hx) with ⟨hk, -⟩ | ⟨hk, -⟩ | ⟨hf, -⟩
      · omega
      · simp only [isSyl, Bool.and_eq_true, Nat.ble_eq] at hk
        omega
      · have := Tree.find_all compose_colorPart hf
        rw [show (c.toNat * 0x200000 + x.toNat) / 0x200000 = c.toNat by omega, h] at this
        simp at this
  · show leadN c.toNat = 0; simp [leadN, h5]
  · show trailN c.toNat = 0; simp [trailN, h5]
  · show dlenN c.toNat ≠ 0; simp [dlenN, h5]

theorem normChain_divide1 {b : Char} (ha : isAssigned ucd15 b = true) (hc : ucd15.cjk b = [b]) (hi : b ≠ CGJ) (hb : Divides ucd15 b) (x y : List Char) :
    normChain ucd15 (x ++ b :: y) = normChain ucd15 x ++ b :: normChain ucd15 y := by
  unfold normChain isolate
  rw [isolate_divide ha hi]
  have : ucd15.cjkVariants (isolateGo ucd15 false false x ++ b :: isolateGo ucd15 false false y) =
      ucd15.cjkVariants (isolateGo ucd15 false false x) ++ b :: ucd15.cjkVariants (isolateGo ucd15 false false y) := by
    simp [cjkVariants, hc]
  rw [this, streamSafe_divide textLaws15.law hb (by simp), nfc_divide hb]

theorem colorPart_small {c : Char} (h : colorPart c.toNat = true) : c.toNat ≤ 0x5b := by
  simp only [colorPart, Bool.or_eq_true, Bool.and_eq_true, Nat.ble_eq, Nat.beq_eq] at h
  omega

theorem normChain_part {c : Char} (h : colorPart c.toNat = true) (y : List Char) : normChain ucd15 (c :: y) = c :: normChain ucd15 y := by
  have hs := colorPart_small h
  have hc : isCompat c = false := by
    cases hx : isCompat c with
    | false => rfl
    | true =>
      exfalso
      obtain ⟨r, h1, h2, h3⟩ := inRanges_iff.1 hx
      simp only [compatRanges, List.mem_cons, List.not_mem_nil, or_false] at h1
      rcases h1 with rfl | rfl | rfl | rfl | rfl | rfl | rfl | rfl | rfl | rfl <;> simp at h2 <;> omega
  have := normChain_divide1 (b := c) (by simp [isAssigned, textLaws15.assigned_ascii c (by omega)]) (cjk_not_compat hc)
    (by rintro rfl; exact absurd hs (by decide)) (divides_color h) [] y
  simpa [normChain_nil] using this

theorem normChain_parts {ps : List Char} (h : ∀ p ∈ ps, colorPart p.toNat = true) (y : List Char) : normChain ucd15 (ps ++ y) = ps ++ normChain ucd15 y := by
  induction ps with
  | nil => rfl
  | cons p ps ih => rw [List.cons_append, normChain_part (h p (by simp)), ih fun q hq => h q (by simp [hq])]; rfl

/-- Around a color sequence the text is normalized by itself, except that `m` goes with what follows. -/
theorem normChain_color {ps : List Char} (h : ∀ p ∈ ps, colorPart p.toNat = true) (x y : List Char) :
    normChain ucd15 (x ++ (ESC :: '[' :: ps) ++ y) = normChain ucd15 x ++ (ESC :: '[' :: ps) ++ normChain ucd15 y := by
  rw [List.append_assoc, List.cons_append, normChain_split textLaws15 (textLaws15.ctl_inert ESC (by decide))
    (by simp [isAssigned, textLaws15.assigned_ascii ESC (by decide)]) (by decide), List.cons_append, normChain_part (by decide), normChain_parts h]
  simp

theorem isCode_part {c : Char} (h : isCode c = true) : colorPart c.toNat = true := by
  simp only [isCode, between, Bool.or_eq_true, Bool.and_eq_true, decide_eq_true_eq] at h
  simp only [colorPart, Bool.or_eq_true, Bool.and_eq_true, Nat.ble_eq, Nat.beq_eq]
  rcases h with ⟨h1, h2⟩ | rfl
  · omega
  · decide

end Verif
