import Verif.ChainTheory
import Verif.Ucd15Start

/-!
# The first scalar of normalized text
-/

namespace Verif
open Ucd
variable {U : Ucd}

theorem head_recomp_of {P : Char → Prop} (hP : ∀ k b r, U.compose k b = some r → P k → P r) {s : List Char} :
    ∀ {k : Char} {last : Option Nat} {buf : List Char}, P k → ∀ c ∈ (U.recomp (some k) last buf s).head?, P c := by
  induction s with
  | nil =>
    intro k last buf h c hc
    simp [recomp] at hc
    rw [← hc]; exact h
  | cons ch r ih =>
    intro k last buf h
    cases last with
    | none =>
      simp only [recomp]
      split
      · rename_i hk; exact ih (hP _ _ _ hk h)
      · split
        · intro c hc; simp at hc; rw [← hc]; exact h
        · exact ih h
    | some l =>
      simp only [recomp]
      split
      · split
        · intro c hc; simp at hc; rw [← hc]; exact h
        · exact ih h
      · split
        · rename_i hk; exact ih (hP _ _ _ hk h)
        · exact ih h

/-- The first scalar of the chain, when the steps before NFC keep a property of it. -/
theorem head_norm_of {P Q : Char → Prop} (hU : TextLaws U) {c0 : Char} {s : List Char}
    (h1 : isAssigned U c0 = false → P CGJ) (h2 : isAssigned U c0 = true → P c0)
    (h3 : ∀ c d ds, P c → U.cjk c = d :: ds → P d)
    (h4 : ∀ c d ds, P c → U.decomp c = d :: ds → Q d)
    (h5 : ∀ k b r, U.compose k b = some r → Q k → Q r)
    (h6 : ∀ c d ds, P c → U.decomp c = d :: ds → U.ccc d ≠ 0 → ∀ e, U.ccc e ≠ 0 → Q e) :
    ∀ c ∈ (normChain U (c0 :: s)).head?, Q c := by
  obtain ⟨c1, s1, h1, hs1⟩ : ∃ c1 s1, P c1 ∧ isolate U (c0 :: s) = c1 :: s1 := by
    simp only [isolate, isolateGo]
    split
    · rename_i h; exact ⟨_, _, h1 (by simpa using h), rfl⟩
    · rename_i h; exact ⟨_, _, h2 (by simpa using h), rfl⟩
  obtain ⟨c2, s2, h2, hs2⟩ : ∃ c2 s2, P c2 ∧ U.cjkVariants (c1 :: s1) = c2 :: s2 := by
    unfold cjkVariants
    rw [List.flatMap_cons]
    cases hc : U.cjk c1 with
    | nil => exact absurd hc (hU.cjk_ne c1)
    | cons d ds => exact ⟨_, _, h3 c1 d ds h1 hc, rfl⟩
  have hss : U.streamSafe 0 (c2 :: s2) = c2 :: U.streamSafe (U.nxt 0 c2) s2 := by
    simp only [streamSafe]
    rw [if_neg (by have := hU.law.lead_le c2; omega)]
  unfold normChain
  rw [hs1, hs2, hss]
  unfold nfc nfd
  rw [List.flatMap_cons]
  cases hd : U.decomp c2 with
  | nil => exact absurd hd (hU.law.decomp_ne c2)
  | cons d ds =>
    rw [List.cons_append]
    by_cases hc : U.ccc d = 0
    · rw [reorder_cons_starter hc]
      simp only [recomp, hc, ne_eq, not_true_eq_false, if_false]
      exact head_recomp_of h5 (h4 c2 d ds h2 hd)
    · have key : ∀ (l : List Char), ∃ e l', U.reorder (d :: l) = e :: l' ∧ U.ccc e ≠ 0 := by
        intro l
        simp only [reorder]
        generalize U.reorder l = m
        cases m with
        | nil => exact ⟨d, [], rfl, hc⟩
        | cons y m =>
          simp only [ins]
          split
          · rename_i h; exact ⟨y, _, rfl, by omega⟩
          · exact ⟨d, _, rfl, hc⟩
      obtain ⟨e, l', he, hne⟩ := key (ds ++ List.flatMap U.decomp (U.streamSafe (U.nxt 0 c2) s2))
      rw [he]
      simp only [recomp, ne_eq, hne, not_false_eq_true, if_true]
      intro c hcc
      simp at hcc
      rw [← hcc]; exact h6 c2 d ds h2 hd hc e hne

/-- Text that starts properly once normalized started properly before. -/
theorem head_normChain_conv (hU : TextLaws U) (hS : StartLaws U) {s : List Char}
    (h : ∀ c ∈ (normChain U s).head?, isStart U c = true) : ∀ c ∈ s.head?, isStart U c = true := by
  cases s with
  | nil => simp
  | cons c0 s =>
    intro c hc
    simp at hc; subst hc
    cases hn : isStart U c0 with
    | true => rfl
    | false =>
      exfalso
      have hne := normChain_ne_nil hU (s := c0 :: s) (by simp)
      have := head_norm_of (s := s) (c0 := c0) (P := fun c => isStart U c = false) (Q := fun c => isStart U c = false) hU
        (by
          intro ha
          have := hU.start_unassigned c0 (by simp [isAssigned] at ha; exact ha.1)
          rw [hn] at this; simp at this)
        (fun _ => hn)
        (by
          intro c d ds hc h
          cases hd : isStart U d with
          | false => rfl
          | true => rw [hS.cjk c d ds h hd] at hc; simp at hc)
        (by
          intro c d ds hc h
          cases hd : isStart U d with
          | false => rfl
          | true => rw [hS.decomp c d ds h hd] at hc; simp at hc)
        (by
          intro k b r hr hk
          cases hd : isStart U r with
          | false => rfl
          | true => rw [hS.compose k b r hr hd] at hk; simp at hk)
        (by
          intro c d ds _ _ _ e he
          cases hd : isStart U e with
          | false => rfl
          | true => exact absurd (start_ccc hU hd) he)
      cases hx : normChain U (c0 :: s) with
      | nil => exact hne hx
      | cons a l =>
        have h1 := this a (by rw [hx]; rfl)
        have h2 := h a (by rw [hx]; rfl)
        rw [h1] at h2; simp at h2

/-- A scalar that starts a text and is not a Hangul vowel or trailing consonant joins nothing before it. -/
def Apart (U : Ucd) (c : Char) : Prop :=
  U.ccc c = 0 ∧ U.lead c = 0 ∧ U.dlen c ≠ 0 ∧ ∀ d ds, U.decomp c = d :: ds → ∀ x, U.compose x d = none

theorem apart_of_start (hU : TextLaws U) {c : Char} (h : isStart U c = true) (hj : isJamoVT c = false) : Apart U c := by
  refine ⟨start_ccc hU h, hU.start_lead c h, hU.dlen_pos c, ?_⟩
  intro d ds hd x
  cases hx : U.compose x d with
  | none => rfl
  | some r =>
    have := hU.start_second c h d ds hd ⟨x, r, hx⟩
    rw [hj] at this; simp at this

theorem head_normChain_apart (hU : TextLaws U) (hS : StartLaws U) {s : List Char}
    (h : ∀ c ∈ s.head?, isStart U c = true ∧ isJamoVT c = false) : ∀ c ∈ (normChain U s).head?, Apart U c := by
  cases s with
  | nil => simp [normChain_nil]
  | cons c0 s =>
    have h0 := h c0 (by simp)
    have hcgj : isJamoVT CGJ = false := by decide
    intro c hc
    have hst : isStart U c = true := head_normChain hU (s := c0 :: s) (fun d hd => (h d hd).1) c hc
    refine ⟨start_ccc hU hst, hU.start_lead c hst, hU.dlen_pos c, ?_⟩
    refine head_norm_of (s := s) (c0 := c0) (P := fun c => isStart U c = true ∧ isJamoVT c = false)
      (Q := fun c => ∀ d ds, U.decomp c = d :: ds → ∀ x, U.compose x d = none) hU
      (fun _ => ⟨hU.start_cgj, hcgj⟩) (fun _ => h0) ?_ ?_ ?_ ?_ c hc
    · intro c d ds hc hd
      refine ⟨hU.start_cjk c hc.1 d ds hd, ?_⟩
      cases hj : isJamoVT d with
      | false => rfl
      | true => rw [hS.cjk_jamo c d ds hd hj, hc.2] at hj; simp at hj
    · intro c d ds hc hd d' ds' hd' x
      have hdd : U.decomp d = [d] := hU.law.decomp_idem c d (by rw [hd]; simp)
      rw [hdd] at hd'
      injection hd' with hd' _
      rw [← hd']
      exact (apart_of_start hU hc.1 hc.2).2.2.2 d ds hd x
    · intro k b r hr hk d ds hd
      rw [hU.law.compose_decomp k b r hr] at hd
      cases hdk : U.decomp k with
      | nil => exact absurd hdk (hU.law.decomp_ne k)
      | cons e es =>
        rw [hdk] at hd
        injection hd with hd _
        rw [← hd]; exact hk e es hdk
    · intro c d ds hc hd hne
      exact absurd (start_ccc hU (hU.start_decomp c hc.1 d ds hd)) hne

end Verif
