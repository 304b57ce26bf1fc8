import Verif.Crash
import Verif.LineCut
import Verif.Early

/-!
# Bytes put in the place of a part of a file
-/

namespace Verif
open Ucd Spec

variable {U : Ucd}

/-- Lossy decoding may be done separately before and from a byte that begins a scalar. -/
theorem lossy_parts (x : Bytes) {r : Bytes} (hr : ∀ b ∈ r.head?, isBoundaryByte b = true) : utf8Lossy (x ++ r) = utf8Lossy x ++ utf8Lossy r := by
  have key : ∀ {κ : Bytes}, κ = [] ∨ incomplete κ = true → ∀ {r : Bytes}, (∀ b ∈ r.head?, isBoundaryByte b = true) →
      utf8Lossy (κ ++ r) = (if κ = [] then [] else ['�']) ++ utf8Lossy r := by
    intro κ hκ r hr
    rcases hκ with rfl | hκ
    · rfl
    · have hne : κ ≠ [] := by intro h; subst h; simp [incomplete] at hκ
      obtain ⟨h1, h2⟩ := lossy_broken hκ hr
      rw [utf8Lossy_bad h1 (by simp [hne]), h2, List.drop_left, if_neg hne]; rfl
  have hk : (feedBytes x).2 = [] ∨ incomplete (feedBytes x).2 = true := (feedBytesGo_rest _ x (Nat.le_refl _)).imp id (·.1)
  have e0 := feedBytes_append x []
  have k0 := key hk (r := []) (by simp)
  have e := feedBytes_append x r
  rw [key hk hr] at e
  rw [List.append_nil] at e0
  rw [k0] at e0
  rw [e, e0]
  simp [utf8Lossy, lossyGo]

/-- An ASCII scalar of the decoded text is a byte. -/
theorem ascii_lossy {c : Char} (hc : c.toNat ≤ 0x7f) (b : Bytes) (h : c ∈ utf8Lossy b) : UInt8.ofNat c.toNat ∈ b := by
  generalize hn : b.length = n
  induction n using Nat.strongRecOn generalizing b with
  | _ n ih =>
    cases hd : decode1 b with
    | some p =>
      obtain ⟨d, r⟩ := p
      rw [utf8Lossy_good hd] at h
      have hb := decode1_some hd
      rcases List.mem_cons.1 h with rfl | h
      · rw [hb]
        have : encodeChar c = [UInt8.ofNat c.toNat] := by unfold encodeChar; rw [if_pos (by omega)]
        simp [this]
      · have := decode1_shorter hd
        have := ih r.length (by omega) r h rfl
        rw [hb]; simp [this]
    | none =>
      by_cases hb : b = []
      · subst hb; simp [utf8Lossy, lossyGo] at h
      · rw [utf8Lossy_bad hd hb] at h
        rcases List.mem_cons.1 h with rfl | h
        · exact absurd hc (by decide)
        · have h1 := badLen_pos hb
          have h2 := badLen_le b
          have := ih (b.drop (badLen b)).length (by rw [List.length_drop]; omega) _ h rfl
          exact List.mem_of_mem_drop this

/-- A source with a newline in it: the reads up to the newline, and the reads from it on. -/
theorem script_at {a b last : List Char} : ∀ {chunks : List (List Char)}, chunks.flatten ++ last = a ++ '\n' :: b →
    ∃ (cs : List (List Char)) (x y : List Char) (st : Status) (more : List Event) (cs2 : List (List Char)) (l2 : List Char), script chunks last = cs.map (.data · .active) ++ .data (x ++ '\n' :: y) st :: more ∧ a = cs.flatten ++ x ∧
      script cs2 l2 = .data ('\n' :: y) st :: more ∧ cs2.flatten ++ l2 = '\n' :: b := by
  intro chunks
  induction chunks generalizing a with
  | nil =>
    intro h
    exact ⟨[], a, b, .end_, [], [], '\n' :: b, by simp at h; simp [script, h], by simp, rfl, rfl⟩
  | cons c chunks ih =>
    intro h
    rw [List.flatten_cons, List.append_assoc] at h
    rcases List.append_eq_append_iff.1 h with ⟨e, h1, h2⟩ | ⟨e, h1, h2⟩
    · obtain ⟨cs, x, y, st, more, cs2, l2, i1, i2, i3, i4⟩ := ih h2
      refine ⟨c :: cs, x, y, st, more, cs2, l2, ?_, by rw [h1, i2]; simp, i3, i4⟩
      rw [show script (c :: chunks) last = .data c .active :: script chunks last from rfl, i1]; rfl
    · cases e with
      | nil =>
        obtain ⟨cs, x, y, st, more, cs2, l2, i1, i2, i3, i4⟩ := ih (a := []) (by simpa using h2.symm)
        refine ⟨c :: cs, x, y, st, more, cs2, l2, ?_, by rw [List.flatten_cons, List.append_assoc, ← i2, h1, List.append_nil, List.append_nil], i3, i4⟩
        rw [show script (c :: chunks) last = .data c .active :: script chunks last from rfl, i1]; rfl
      | cons n e =>
        simp only [List.cons_append, List.cons.injEq] at h2
        obtain ⟨rfl, h2⟩ := h2
        exact ⟨[], a, e, .active, script chunks last, ('\n' :: e) :: chunks, last, by rw [h1]; rfl, by simp, rfl, by simp [h2]⟩

/-- What is between an operating system command's beginning and the end of a text does not come out. -/
theorem tokens_osc {one : Char → Tok} {w : List Char} (h : ∀ c ∈ w, c ≠ BEL ∧ c ≠ CAN ∧ c ≠ ESC) : tokens finCan one (ESC :: ']' :: w) = [.gone] := by
  have h2 : w.dropWhile oscText = [] := by
    induction w with
    | nil => rfl
    | cons c w ih =>
      rw [List.dropWhile_cons_of_pos, ih fun d hd => h d (by simp [hd])]
      obtain ⟨k1, k2, k3⟩ := h c (by simp)
      unfold oscText
      exact decide_eq_true ⟨k1, k2, k3⟩
  have h1 : (']' :: w).dropWhile (· = ESC) = ']' :: w := by
    rw [List.dropWhile_cons_of_neg (by decide)]
  rw [tokens]
  rw [if_neg (by decide), if_neg (by decide), if_neg (by decide), if_pos rfl, h1]
  simp only [afterEsc, h2, dropOne]
  rw [tokens]

end Verif
