import Verif.Early
import Verif.StringTheory
import Verif.Cats
import Verif.Props.Pieces

/-!
# Basic Text cut short

The beginning of a Basic Text stream, as a reader takes it.
-/

namespace Verif
open Ucd Spec

/-- What has to be put behind the beginning of a Basic Text stream to make it a Basic Text stream (`docs/BasicText.md`: the last scalar must be
allowed at the end, and a stream is empty or ends with a newline). -/
def closing (u : List Char) : List Char :=
  match u.getLast? with
  | none => []
  | some c => if c = '\n' then [] else if isEnd c then ['\n'] else [CGJ, '\n']

/-- The beginning of valid text, read: what is missing at the end is put there. -/
theorem stream_beginning {nel lsps : Bool} {u : List Char} (h1 : ∀ c ∈ u.head?, isStart ucd15 c = true)
    (h2 : isBasicTextSubstr ucd15 u = true) (ha : ∀ c ∈ u, isAssigned ucd15 c = true) : stream ucd15 nel lsps u = u ++ closing u := by
  obtain ⟨h4, h5⟩ := substr_iff.1 h2
  have hn : NoCgjUn ucd15 (translate ucd15 nel lsps (dropBom u)) := by
    apply noCgjUn_translate textLaws15
    rw [ok_dropBom h4]
    exact Or.inl ha
  unfold stream closing
  rw [← normalize_spec textLaws15 hn, ok_dropBom h4, translate_clean h1 h4]
  have hnl := fun s => normChain_split textLaws15 textLaws15.law.inert_nl (b := '\n') (by simp [isAssigned, textLaws15.assigned_ascii '\n' (by decide)]) (by decide) s []
  rcases List.eq_nil_or_concat u with rfl | ⟨w, c, rfl⟩
  · simp [normChain_nil]
  · rw [List.concat_eq_append] at *
    simp only [List.append_eq_nil_iff, List.cons_ne_nil, and_false, false_or, List.getLast?_concat, Option.some.injEq]
    split
    · rw [List.append_nil]; exact normChain_of_assigned textLaws15 h5 ha
    · unfold guardEnd
      rw [List.getLast?_concat]
      split
      · rename_i e
        obtain rfl := Option.some.inj e
        split
        · rw [hnl, normChain_of_assigned textLaws15 h5 ha]; rfl
        · have hc : isBasicTextSubstr ucd15 [CGJ] = true := by decide +kernel
          have := substr_append textLaws15 h2 hc (by intro c hc; simp only [List.head?_cons, Option.mem_def, Option.some.injEq] at hc; subst hc; exact ⟨by decide +kernel, by decide⟩)
          rw [hnl, normChain_of_assigned textLaws15 (substr_iff.1 this).2]
          · simp [normChain_nil]
          · intro d hd
            rcases List.mem_append.1 hd with hd | hd
            · exact ha d hd
            · rw [List.mem_singleton.1 hd]; decide +kernel
      · rename_i e; simp at e

/-- The bytes of an incomplete scalar. -/
theorem incomplete_high {b : Bytes} (h : incomplete b = true) : 10 ∉ b := by
  have hs : ∀ {a y : UInt8}, secondOk a y = true → 10 ≠ a ∧ 10 ≠ y := fun h => by
    have := secondOk_cont h
    constructor
    · rintro rfl; exact absurd this.2.2.1 (by decide)
    · rintro rfl; exact absurd this.1 (by decide)
  match b, h with
  | [a], h =>
    simp only [incomplete, Bool.and_eq_true, decide_eq_true_eq] at h
    simp only [List.mem_singleton]
    rintro rfl
    exact absurd h.1 (by decide)
  | [a, b], h => simp only [incomplete] at h; simp [hs h]
  | [a, b, c], h =>
    simp only [incomplete, Bool.and_eq_true, decide_eq_true_eq] at h
    simp only [List.mem_cons, List.not_mem_nil, or_false, not_or]
    refine ⟨(hs h.1).1, (hs h.1).2, ?_⟩
    rintro rfl
    exact absurd h.2.2 (by decide)

/-- Bytes that are no bytes, or the first bytes of the first scalar of a text, but not all of them. -/
def Begins (κ : Bytes) (t : List Char) : Prop := κ = [] ∨ ∃ c t' z, t = c :: t' ∧ encodeChar c = κ ++ z ∧ z ≠ []

/-- What a cut leaves completely, exactly. -/
theorem cut_whole {T : List Char} {b x : Bytes} (h : encode T = b ++ x) :
    ∃ t, T = (feedBytes b).1 ++ t ∧ b = encode (feedBytes b).1 ++ (feedBytes b).2 ∧ Begins (feedBytes b).2 t := by
  obtain ⟨t, h1, h2⟩ := feedBytes_encode h
  refine ⟨t, h1, ?_, ?_⟩
  · have : b ++ x = (encode (feedBytes b).1 ++ (feedBytes b).2) ++ x := by
      rw [← h, List.append_assoc, h2]
      conv => lhs; rw [h1]
      simp [encode]
    exact List.append_cancel_right this
  · rcases feedBytesGo_rest _ b (Nat.le_refl _) with hn | ⟨hi, hd⟩
    · exact .inl hn
    · have hd : decode1 (feedBytes b).2 = none := hd
      cases t with
      | nil =>
        have : (feedBytes b).2 = [] := (List.append_eq_nil_iff.1 (h2.trans (rfl : encode [] = []))).1
        exact .inl this
      | cons c t =>
        rw [encode_cons] at h2
        rcases List.append_eq_append_iff.1 h2.symm with ⟨e, e1, e2⟩ | ⟨e, e1, e2⟩
        · rw [e1, decode1_encode] at hd; simp at hd
        · refine .inr ⟨c, t, e, rfl, e1, ?_⟩
          rintro rfl
          rw [List.append_nil] at e1
          have := decode1_encode c []
          rw [List.append_nil, e1, hd] at this
          simp at this

/-- Bytes of text cut anywhere: complete scalars, and the beginning of one more. -/
theorem cut_bytes {T : List Char} {b x : Bytes} (h : encode T = b ++ x) : ∃ u t κ, T = u ++ t ∧ b = encode u ++ κ ∧ Begins κ t ∧ κ.length ≤ 3 ∧ 10 ∉ κ ∧
    utf8Lossy b = u ++ if κ = [] then [] else ['�'] := by
  obtain ⟨t, h1, h2, h3⟩ := cut_whole h
  refine ⟨(feedBytes b).1, t, (feedBytes b).2, h1, h2, h3, feedBytes_kept b, ?_, ?_⟩
  · rcases feedBytesGo_rest _ b (Nat.le_refl _) with hn | ⟨hi, hd⟩
    · rw [show (feedBytes b).2 = [] from hn]; simp
    · exact incomplete_high hi
  · have ha := feedBytes_append b []
    rw [List.append_nil, List.append_nil] at ha
    rw [ha]
    rcases feedBytesGo_rest _ b (Nat.le_refl _) with hn | ⟨hi, hd⟩
    · rw [show (feedBytes b).2 = [] from hn, utf8Lossy_nil]; rfl
    · rw [show utf8Lossy (feedBytes b).2 = ['�'] from incomplete_lossy hi hd, if_neg]
      intro h0
      have : incomplete (feedBytes b).2 = true := hi
      rw [h0] at this
      simp [incomplete] at this

end Verif
