import Verif.CutShort

/-!
# Windows of Basic Text

A part of a Basic Text stream, from any byte to any byte, as a reader takes it.
-/

namespace Verif
open Ucd Spec

/-- What has to be put before a part of Basic Text to make it begin as text may (`docs/BasicText.md`). -/
def lead (w : List Char) : List Char :=
  match w.head? with
  | none => []
  | some c => if isStart ucd15 c then [] else [CGJ]

/-- The translation of a part of valid text. -/
theorem translate_part {U : Ucd} {nel lsps : Bool} {s : List Char} (h4 : ∀ c ∈ s, okChar c = true) :
    translate U nel lsps s = if s = [] ∨ s.getLast? = some '\n' then guardEnd (guardStart U s) else guardEnd (guardStart U s) ++ ['\n'] := by
  have hflat : (s.map fun c => if c = '\n' then Tok.nl else .text [c]).flatMap Tok.out = s := by
    clear h4
    induction s with
    | nil => rfl
    | cons c s ih =>
      rw [List.map_cons, List.flatMap_cons, ih]
      split
      · rename_i hc; rw [hc]; rfl
      · rfl
  unfold translate
  rw [tokens_ok h4]
  simp only [hflat]
  have hcond : ((s.map fun c => if c = '\n' then Tok.nl else .text [c]) = [] ∨
      (s.map fun c => if c = '\n' then Tok.nl else .text [c]).getLast? = some .nl) ↔ (s = [] ∨ s.getLast? = some '\n') := by
    rw [List.map_eq_nil_iff, List.getLast?_map]
    cases hl : s.getLast? with
    | none => simp
    | some c =>
      simp only [Option.map_some, Option.some.injEq]
      by_cases hc : c = '\n' <;> simp [hc]
  simp only [hcond]

/-- A part of valid text, read: what is missing at its ends is put there. -/
theorem stream_part {nel lsps : Bool} {w : List Char} (h2 : isBasicTextSubstr ucd15 w = true) (ha : ∀ c ∈ w, isAssigned ucd15 c = true) :
    stream ucd15 nel lsps w = lead w ++ w ++ closing w := by
  by_cases h1 : ∀ c ∈ w.head?, isStart ucd15 c = true
  · rw [stream_beginning h1 h2 ha]
    have : lead w = [] := by
      unfold lead
      split
      · rfl
      · rename_i c hc; rw [if_pos (h1 c hc)]
    rw [this, List.nil_append]
  · cases w with
    | nil => simp at h1
    | cons c w =>
      have hc : isStart ucd15 c = false := by simpa using h1
      have hg : guardStart ucd15 (c :: w) = CGJ :: c :: w := by simp [guardStart, hc]
      -- the same as with the joiner in front
      have hs : isBasicTextSubstr ucd15 (CGJ :: c :: w) = true := by
        obtain ⟨h4, h5⟩ := substr_iff.1 h2
        have hj := normChain_append_seg textLaws15 (x := []) (y := c :: w) (b := CGJ) (by decide) (fun _ d hd => ha d (List.mem_of_mem_head? hd))
        rw [normChain_of_assigned textLaws15 h5 ha, List.nil_append, show normChain ucd15 [CGJ] = [CGJ] by decide +kernel] at hj
        refine substr_iff.2 ⟨?_, ((normChain_eq_iff textLaws15).1 hj).1⟩
        intro d hd
        rcases List.mem_cons.1 hd with rfl | hd
        · decide
        · exact h4 d hd
      have ha' : ∀ d ∈ CGJ :: c :: w, isAssigned ucd15 d = true := by
        intro d hd
        rcases List.mem_cons.1 hd with rfl | hd
        · decide +kernel
        · exact ha d hd
      have hst : ∀ d ∈ (CGJ :: c :: w).head?, isStart ucd15 d = true := by
        intro d hd
        obtain rfl : CGJ = d := by simpa using hd
        decide +kernel
      have hgs : guardStart ucd15 (CGJ :: c :: w) = CGJ :: c :: w := by simp [guardStart, hst CGJ (by simp)]
      have hsame : stream ucd15 nel lsps (c :: w) = stream ucd15 nel lsps (CGJ :: c :: w) := by
        unfold stream
        rw [ok_dropBom (substr_iff.1 h2).1, ok_dropBom (substr_iff.1 hs).1, translate_part (substr_iff.1 h2).1, translate_part (substr_iff.1 hs).1, hg, hgs]
        simp [List.getLast?_cons]
      rw [hsame, stream_beginning hst hs ha']
      have : closing (CGJ :: c :: w) = closing (c :: w) := by simp [closing, List.getLast?_cons]
      rw [this]
      simp [lead, hc]

/-! ## Bytes -/

theorem lossy_cont {a : UInt8} {r : Bytes} (h : 0x80 ≤ a.toNat ∧ a.toNat < 0xc0) : utf8Lossy (a :: r) = '�' :: utf8Lossy r := by
  have hd : decode1 (a :: r) = none := by rw [decode1.eq_def]; simp only; rw [if_neg (by omega), if_pos h.2]
  have hs : ∀ y, secondOk a y = false := by
    intro y
    cases e : secondOk a y
    · rfl
    · have := secondOk_cont e; omega
  have hb : badLen (a :: r) = 1 := by
    match r with
    | [] => rfl
    | [y] => simp [badLen, hs]
    | y :: z :: r => simp [badLen, hs]
  rw [utf8Lossy_bad hd (by simp), hb]; rfl

theorem lossy_conts {d r : Bytes} (h : ∀ a ∈ d, 0x80 ≤ a.toNat ∧ a.toNat < 0xc0) : utf8Lossy (d ++ r) = List.replicate d.length '�' ++ utf8Lossy r := by
  induction d with
  | nil => rfl
  | cons a d ih =>
    rw [List.cons_append, lossy_cont (h a (by simp)), ih fun b hb => h b (by simp [hb]), List.length_cons, List.replicate_succ, List.cons_append]

/-- Bytes that are no bytes, or bytes of the last scalar of a text, not from its first one on; behind them there are `w` more of it. -/
def Ends (d : Bytes) (p : List Char) (w : Bytes) : Prop := d = [] ∨ ∃ p' c z, p = p' ++ [c] ∧ encodeChar c = z ++ d ++ w ∧ z ≠ []

/-- Text from any byte on: the rest of one scalar, and scalars. -/
theorem from_byte {T : List Char} : ∀ {x y : Bytes}, encode T = x ++ y → ∃ p d t, T = p ++ t ∧ y = d ++ encode t ∧ Ends d p [] ∧ d.length ≤ 3 ∧
    ∀ a ∈ d, 0x80 ≤ a.toNat ∧ a.toNat < 0xc0 := by
  induction T with
  | nil =>
    intro x y h
    have : y = [] := (List.append_eq_nil_iff.1 (h.symm.trans (rfl : encode [] = []))).2
    exact ⟨[], [], [], rfl, by simp [this, encode], .inl rfl, by simp, by simp⟩
  | cons c T ih =>
    intro x y h
    cases x with
    | nil => exact ⟨[], [], c :: T, rfl, by simpa using h.symm, .inl rfl, by simp, by simp⟩
    | cons x0 x =>
      rw [encode_cons] at h
      rcases List.append_eq_append_iff.1 h with ⟨e, h1, h2⟩ | ⟨e, h1, h2⟩
      · obtain ⟨p, d, t, rfl, r2, rk, r3, r4⟩ := ih h2
        refine ⟨c :: p, d, t, rfl, r2, rk.imp id ?_, r3, r4⟩
        rintro ⟨p', c', z, rfl, k⟩
        exact ⟨c :: p', c', z, rfl, k⟩
      · obtain ⟨b, r, e1, -, e3⟩ := encodeChar_head c
        refine ⟨[c], e, T, rfl, h2, .inr ⟨[], c, x0 :: x, rfl, by simpa using h1, by simp⟩, ?_, ?_⟩
        · have hl := utf8Len_le c
          rw [← encodeChar_length, h1] at hl
          simp at hl; omega
        · rw [h1, List.cons_append] at e1
          injection e1 with _ e1
          intro a ha
          have hb := e3 a (by rw [← e1]; simp [ha])
          simp only [isBoundaryByte, Bool.not_eq_eq_eq_not, Bool.not_false, Bool.and_eq_true, decide_eq_true_eq] at hb
          omega

/-- Text from any byte to any byte: the rest of one scalar, scalars, and the beginning of one. -/
theorem window_bytes {T : List Char} {x b y : Bytes} (h : encode T = x ++ b ++ y) : ∃ p u t d κ, T = p ++ u ++ t ∧ b = d ++ encode u ++ κ ∧
    (∃ w, Ends d p w ∧ (w ≠ [] → u = [] ∧ κ = [])) ∧ Begins κ t ∧ d.length ≤ 3 ∧ κ.length ≤ 3 ∧ 10 ∉ d ∧ 10 ∉ κ ∧ utf8Lossy b = List.replicate d.length '�' ++ (u ++ if κ = [] then [] else ['�']) := by
  rw [List.append_assoc] at h
  obtain ⟨p, d, t, rfl, h2, hk, h3, h4⟩ := from_byte h
  have hd : ∀ d : Bytes, (∀ a ∈ d, 0x80 ≤ a.toNat ∧ a.toNat < 0xc0) → 10 ∉ d := fun d hd hm => absurd (hd 10 hm).1 (by decide)
  rcases List.append_eq_append_iff.1 h2 with ⟨e, e1, e2⟩ | ⟨e, e1, e2⟩
  · refine ⟨p, [], t, b, [], by simp, by simp [encode], ⟨e, ?_, fun _ => ⟨rfl, rfl⟩⟩, .inl rfl, ?_, by simp, hd b fun a ha => h4 a (by simp [e1, ha]), by simp, ?_⟩
    · rcases hk with h0 | ⟨p', c, z, k1, k2, k3⟩
      · exact .inl (List.append_eq_nil_iff.1 (e1.symm.trans h0)).1
      · exact .inr ⟨p', c, z, k1, by rw [k2, e1]; simp, k3⟩
    · rw [e1] at h3; simp at h3; omega
    · have := lossy_conts (d := b) (r := []) fun a ha => h4 a (by simp [e1, ha])
      simpa [utf8Lossy_nil] using this
  · obtain ⟨u, t', κ, rfl, k2, kb, k3, k4, k5⟩ := cut_bytes e2
    exact ⟨p, u, t', d, κ, by simp, by rw [e1, k2, List.append_assoc], ⟨[], hk, fun h => absurd rfl h⟩, kb, h3, k3, hd d h4, k4, by rw [e1, lossy_conts h4, k5]⟩

end Verif
