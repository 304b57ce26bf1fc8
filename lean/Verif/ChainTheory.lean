import Verif.Splitting

/-!
# Theory of `IsolateUnassigned` and of the whole normalization chain
-/

namespace Verif
open Ucd
variable {U : Ucd}

/-! ## `IsolateUnassigned` -/

theorem isolateGo_all {s : List Char} (h : ∀ c ∈ s, isAssigned U c = true) : ∀ {hv : Bool}, isolateGo U false hv s = s := by
  induction s with
  | nil => intro hv; rfl
  | cons c s ih =>
    intro hv
    simp only [isolateGo, h c (by simp)]
    simp [ih (fun x hx => h x (by simp [hx]))]

theorem isolateGo_append {b : Char} (ha : isAssigned U b = true) {x y : List Char} : ∀ {need hv : Bool},
    isolateGo U need hv (x ++ b :: y) = isolateGo U need hv (x ++ [b]) ++ isolateGo U false (b == CGJ) y := by
  induction x with
  | nil =>
    intro need hv
    simp only [List.nil_append, isolateGo, ha]
    by_cases hb : b = CGJ
    · cases need <;> simp [hb]
    · have hb' : (b == CGJ) = false := by simpa using hb
      cases need <;> simp [hb, hb']
  | cons c x ih =>
    intro need hv
    simp only [List.cons_append, isolateGo]
    split
    · rw [ih]; simp
    · rw [ih]; simp

theorem isolateGo_concat {b : Char} (ha : isAssigned U b = true) (hb : b ≠ CGJ) {x : List Char} : ∀ {need hv : Bool},
    isolateGo U need hv (x ++ [b]) = isolateGo U need hv x ++ [b] := by
  induction x with
  | nil =>
    intro need hv
    cases need <;> simp [isolateGo, ha, hb]
  | cons c x ih =>
    intro need hv
    simp only [List.cons_append, isolateGo]
    split <;> · rw [ih]; simp

theorem isolate_split {b : Char} (ha : isAssigned U b = true) (hb : b ≠ CGJ) (x y : List Char) :
    isolate U (x ++ b :: y) = isolate U x ++ b :: isolate U y := by
  unfold isolate
  rw [isolateGo_append ha, isolateGo_concat ha hb, show (b == CGJ) = false by simpa using hb]
  simp

theorem mem_isolateGo {x : Char} {s : List Char} : ∀ {need hv : Bool}, x ∈ isolateGo U need hv s → x ∈ s ∨ x = CGJ := by
  induction s with
  | nil => intro need hv h; cases need <;> simp_all [isolateGo]
  | cons c s ih =>
    intro need hv h
    simp only [isolateGo] at h
    split at h
    · simp only [List.mem_cons] at h ⊢
      rcases h with h | h | h
      · exact Or.inr h
      · exact Or.inl (Or.inl h)
      · have := ih h; grind
    · simp only [List.mem_cons] at h ⊢
      rcases h with h | h
      · exact Or.inl (Or.inl h)
      · have := ih h; grind

theorem isolateGo_ne_nil {s : List Char} (h : s ≠ []) {need hv : Bool} : isolateGo U need hv s ≠ [] := by
  cases s with
  | nil => simp at h
  | cons c s => simp only [isolateGo]; split <;> simp

/-- Every unassigned scalar directly follows U+34F (`hv`: whether the scalar before the list is one). -/
def Pre (U : Ucd) : Bool → List Char → Prop
  | _, [] => True
  | hv, c :: s => (isAssigned U c = false → hv = true) ∧ Pre U (c == CGJ) s

theorem Pre.weaken {s : List Char} {hv : Bool} (h : Pre U hv s) : Pre U true s := by
  cases s with
  | nil => trivial
  | cons c s => exact ⟨fun _ => rfl, h.2⟩

theorem pre_of_all {s : List Char} (h : ∀ c ∈ s, isAssigned U c = true) : ∀ {hv : Bool}, Pre U hv s := by
  induction s with
  | nil => intros; trivial
  | cons c s ih =>
    intro hv
    exact ⟨fun hc => by simp [h c (by simp)] at hc, ih fun x hx => h x (by simp [hx])⟩

theorem pre_append {x y : List Char} : ∀ {hv : Bool}, Pre U hv (x ++ y) ↔ Pre U hv x ∧ Pre U (match x.getLast? with | some l => l == CGJ | none => hv) y := by
  induction x with
  | nil => intro hv; simp [Pre]
  | cons c x ih =>
    intro hv
    simp only [List.cons_append, Pre, ih]
    rw [and_assoc]
    cases x with
    | nil => simp
    | cons d x => simp [List.getLast?_cons]

theorem pre_isolateGo (hU : TextLaws U) {s : List Char} : ∀ {need hv : Bool}, Pre U hv (isolateGo U need hv s) := by
  have hC : isAssigned U CGJ = true := by simp [isAssigned, hU.assigned_cgj]
  induction s with
  | nil => intro need hv; cases need <;> simp [isolateGo, Pre, hC]
  | cons c s ih =>
    intro need hv
    simp only [isolateGo]
    split
    · rename_i h
      refine ⟨by simp [hC], by simp, ?_⟩
      have hc : (c == CGJ) = false := by
        simp only [Bool.or_eq_true, Bool.and_eq_true, bne_iff_ne, Bool.not_eq_true'] at h
        rcases h with h | h
        · simpa using h.2
        · apply Bool.eq_false_iff.2
          intro hc
          rw [beq_iff_eq.1 hc, hC] at h
          simp at h
      rw [hc]; exact ih
    · rename_i h
      refine ⟨?_, ih⟩
      intro hc
      simp only [Bool.or_eq_true, Bool.and_eq_true, hc, not_or] at h
      simpa using h.2

theorem isolateGo_pre {s : List Char} : ∀ {hv : Bool}, Pre U hv s → isolateGo U false hv s = s := by
  induction s with
  | nil => intros; rfl
  | cons c s ih =>
    intro hv h
    simp only [isolateGo]
    split
    · rename_i hc
      simp only [Bool.false_and, Bool.false_or, Bool.and_eq_true, Bool.not_eq_true'] at hc
      have := h.1 hc.1
      rw [hc.2] at this; simp at this
    · rw [ih h.2]

/-- `isolate` leaves exactly the strings alone in which every unassigned scalar follows U+34F. -/
theorem isolate_eq_iff (hU : TextLaws U) {s : List Char} : isolate U s = s ↔ Pre U false s := by
  constructor
  · intro h; rw [← h]; exact pre_isolateGo hU
  · exact isolateGo_pre

theorem isolate_idem (hU : TextLaws U) (s : List Char) : isolate U (isolate U s) = isolate U s :=
  (isolate_eq_iff hU).2 (pre_isolateGo hU)

/-! ## The chain after isolation -/

/-- Variants, stream-safe insertion and NFC. -/
def norm3 (U : Ucd) (s : List Char) : List Char := U.nfc (U.streamSafe 0 (U.cjkVariants s))

theorem normChain_eq (s : List Char) : normChain U s = norm3 U (isolate U s) := rfl

theorem norm3_nil : norm3 U [] = [] := rfl

theorem norm3_split (hU : TextLaws U) {b : Char} (hb : U.Inert b) (x y : List Char) :
    norm3 U (x ++ b :: y) = norm3 U x ++ b :: norm3 U y := by
  unfold norm3
  rw [cjkVariants_split hb, streamSafe_split hU.law hb (Nat.zero_le _), nfc_split hb]

theorem norm3_nss (hU : TextLaws U) (s : List Char) : U.isNfcStreamSafe (norm3 U s) = true :=
  isNfcStreamSafe_norm hU.law _

theorem norm3_of_nss (hU : TextLaws U) {s : List Char} (h : U.isNfcStreamSafe s = true) : norm3 U s = s := by
  unfold norm3
  rw [cjk_of_nss hU.law h]
  have h := (isNfcStreamSafe_iff hU.law).1 h
  rw [streamSafe_of_chk h.1, h.2]

theorem norm3_ne_nil (hU : TextLaws U) {s : List Char} (h : s ≠ []) : norm3 U s ≠ [] := by
  unfold norm3
  apply nfc_ne_nil hU.law
  have h1 : U.cjkVariants s ≠ [] := by
    cases s with
    | nil => simp at h
    | cons c s =>
      obtain ⟨d, hd⟩ := List.exists_mem_of_ne_nil _ (hU.cjk_ne c)
      exact List.ne_nil_of_mem (a := d) (List.mem_flatMap.2 ⟨c, by simp, hd⟩)
  intro h2
  have := streamSafe_length (U := U) (s := U.cjkVariants s) (n := 0)
  rw [h2] at this
  exact h1 (List.length_eq_zero_iff.1 (by simpa using this))

theorem mem_norm3_inert (hU : TextLaws U) {x : Char} (hx : U.Inert x) (hc : x ≠ CGJ) {s : List Char} (h : x ∈ norm3 U s) :
    x ∈ s := by
  rcases mem_streamSafe (mem_nfc_inert hU.law hx h) with h | h
  · unfold cjkVariants at h
    obtain ⟨c, hc, h⟩ := List.mem_flatMap.1 h
    rw [hx.cjk_only c h] at hc; exact hc
  · exact absurd h hc

theorem inert_of_not_assigned (hU : TextLaws U) {c : Char} (h : isAssigned U c = false) : U.Inert c := by
  apply hU.unassigned_inert
  simp only [isAssigned, Bool.or_eq_false_iff] at h
  exact h.1

/-- The part of the chain after isolation keeps unassigned scalars behind their U+34F. -/
theorem pre_norm3 (hU : TextLaws U) : ∀ (n : Nat) (s : List Char) (hv : Bool), s.length ≤ n → Pre U hv s → Pre U hv (norm3 U s) := by
  have hC : isAssigned U CGJ = true := by simp [isAssigned, hU.assigned_cgj]
  intro n
  induction n with
  | zero =>
    intro s hv hn h
    have : s = [] := List.length_eq_zero_iff.1 (by omega)
    rw [this]; trivial
  | succ n ih =>
    intro s hv hn h
    by_cases hall : ∀ c ∈ s, isAssigned U c = true
    · apply pre_of_all
      intro c hc
      apply Classical.byContradiction
      intro hc'
      have hc' : isAssigned U c = false := by simpa using hc'
      have := hall c (mem_norm3_inert hU (inert_of_not_assigned hU hc') (by intro h; rw [h, hC] at hc'; simp at hc') hc)
      rw [hc'] at this; simp at this
    · have hex : ∃ u ∈ s, isAssigned U u = false := by
        apply Classical.byContradiction
        intro hne
        apply hall
        intro c hc
        apply Classical.byContradiction
        intro h
        exact hne ⟨c, hc, by simpa using h⟩
      obtain ⟨u, hu, hua⟩ := hex
      obtain ⟨x, y, rfl⟩ := List.append_of_mem hu
      have hui := inert_of_not_assigned hU hua
      rw [norm3_split hU hui]
      rw [pre_append] at h ⊢
      have hlen : x.length ≤ n ∧ y.length ≤ n := by simp at hn; omega
      refine ⟨ih x hv hlen.1 h.1, ?_, ih y _ hlen.2 h.2.2⟩
      intro _
      have h1 := h.2.1 hua
      rcases List.eq_nil_or_concat x with rfl | ⟨x, l, rfl⟩
      · simpa [norm3_nil] using h1
      · simp only [List.concat_eq_append, List.getLast?_append, List.getLast?_singleton, Option.some_or, beq_iff_eq] at h1 ⊢
        rw [h1, norm3_split hU hU.law.inert_cgj, norm3_nil]
        simp

/-- The chain isolates unassigned scalars once and for all. -/
theorem pre_normChain (hU : TextLaws U) (s : List Char) : Pre U false (normChain U s) :=
  pre_norm3 hU _ _ _ (Nat.le_refl _) (pre_isolateGo hU)

theorem normChain_split (hU : TextLaws U) {b : Char} (hb : U.Inert b) (ha : isAssigned U b = true) (hc : b ≠ CGJ) (x y : List Char) :
    normChain U (x ++ b :: y) = normChain U x ++ b :: normChain U y := by
  rw [normChain_eq, isolate_split ha hc, norm3_split hU hb]; rfl

theorem normChain_nil : normChain U [] = [] := rfl

theorem normChain_nss (hU : TextLaws U) (s : List Char) : U.isNfcStreamSafe (normChain U s) = true := norm3_nss hU _

/-- The chain is the identity exactly on stream-safe NFC text with isolated unassigned scalars. -/
theorem normChain_eq_iff (hU : TextLaws U) {s : List Char} :
    normChain U s = s ↔ U.isNfcStreamSafe s = true ∧ Pre U false s := by
  constructor
  · intro h; rw [← h]; exact ⟨normChain_nss hU s, pre_normChain hU s⟩
  · intro ⟨h1, h2⟩
    rw [normChain_eq, (isolate_eq_iff hU).2 h2, norm3_of_nss hU h1]

theorem normChain_idem (hU : TextLaws U) (s : List Char) : normChain U (normChain U s) = normChain U s :=
  (normChain_eq_iff hU).2 ⟨normChain_nss hU s, pre_normChain hU s⟩

theorem normChain_of_assigned (hU : TextLaws U) {s : List Char} (h : U.isNfcStreamSafe s = true)
    (ha : ∀ c ∈ s, isAssigned U c = true) : normChain U s = s :=
  (normChain_eq_iff hU).2 ⟨h, pre_of_all ha⟩

theorem normChain_ne_nil (hU : TextLaws U) {s : List Char} (h : s ≠ []) : normChain U s ≠ [] :=
  norm3_ne_nil hU (isolateGo_ne_nil h)

theorem mem_normChain_inert (hU : TextLaws U) {x : Char} (hx : U.Inert x) (hc : x ≠ CGJ) {s : List Char} (h : x ∈ normChain U s) :
    x ∈ s := by
  rcases mem_isolateGo (mem_norm3_inert hU hx hc h) with h | h
  · exact h
  · exact absurd h hc

/-! ### Which scalars come out -/

theorem ok_cgj : okChar CGJ = true := by decide +kernel

/-- Everything the chain yields is accepted by `check_basic_text_char`, if it is fed with such scalars or
the ones normalization removes. -/
theorem ok_normChain (hU : TextLaws U) {s : List Char} (h : ∀ c ∈ s, okChar c = true ∨ isLegacy c = true) :
    ∀ c ∈ normChain U s, okChar c = true := by
  intro c hc
  rcases mem_nfc hc with ⟨d, hd, hcd⟩ | ⟨k, b, hk⟩
  · apply hU.ok_decomp d _ c hcd
    rcases mem_streamSafe hd with hd | hd
    · unfold cjkVariants at hd
      obtain ⟨e, he, hde⟩ := List.mem_flatMap.1 hd
      apply hU.ok_cjk e _ d hde
      rcases mem_isolateGo he with he | he
      · exact h e he
      · rw [he]; exact Or.inl ok_cgj
    · rw [hd]; exact Or.inl ok_cgj
  · exact hU.ok_compose _ _ _ hk

/-! ### First scalar -/

theorem start_ccc (hU : TextLaws U) {c : Char} (h : isStart U c = true) : U.ccc c = 0 := by
  unfold isStart isStarter isNfStarter at h
  simp only [Bool.and_eq_true, Bool.or_eq_true, beq_iff_eq] at h
  rcases h.1 with h | h
  · exact (hU.law.ascii c (Nat.le_of_ble_eq_true h)).1
  · exact h

theorem head_recomp (hU : TextLaws U) {s : List Char} : ∀ {k : Char} {last : Option Nat} {buf : List Char}, isStart U k = true →
    ∀ c ∈ (U.recomp (some k) last buf s).head?, isStart U c = true := by
  induction s with
  | nil =>
    intro k last buf h c hc
    simp [recomp] at hc
    rw [← hc]; exact h
  | cons ch r ih =>
    intro k last buf h
    cases last with
    | none =>
      simp only [recomp]
      split
      · rename_i hk; exact ih (hU.start_compose _ _ _ hk h)
      · split
        · intro c hc; simp at hc; rw [← hc]; exact h
        · exact ih h
    | some l =>
      simp only [recomp]
      split
      · split
        · intro c hc; simp at hc; rw [← hc]; exact h
        · exact ih h
      · split
        · rename_i hk; exact ih (hU.start_compose _ _ _ hk h)
        · exact ih h

theorem head_normChain (hU : TextLaws U) {s : List Char} (h : ∀ c ∈ s.head?, isStart U c = true) :
    ∀ c ∈ (normChain U s).head?, isStart U c = true := by
  cases s with
  | nil => simp [normChain_nil]
  | cons c0 s =>
    have h0 := h c0 (by simp)
    obtain ⟨c1, s1, h1, hs1⟩ : ∃ c1 s1, isStart U c1 = true ∧ isolate U (c0 :: s) = c1 :: s1 := by
      simp only [isolate, isolateGo]
      split
      · exact ⟨_, _, hU.start_cgj, rfl⟩
      · exact ⟨_, _, h0, rfl⟩
    obtain ⟨c2, s2, h2, hs2⟩ : ∃ c2 s2, isStart U c2 = true ∧ U.cjkVariants (c1 :: s1) = c2 :: s2 := by
      unfold cjkVariants
      rw [List.flatMap_cons]
      cases hc : U.cjk c1 with
      | nil => exact absurd hc (hU.cjk_ne c1)
      | cons d ds => exact ⟨_, _, hU.start_cjk c1 h1 d ds hc, rfl⟩
    have h3 : U.streamSafe 0 (c2 :: s2) = c2 :: U.streamSafe (U.nxt 0 c2) s2 := by
      simp only [streamSafe]
      rw [if_neg (by have := hU.law.lead_le c2; omega)]
    unfold normChain
    rw [hs1, hs2, h3]
    unfold nfc nfd
    rw [List.flatMap_cons]
    cases hd : U.decomp c2 with
    | nil => exact absurd hd (hU.law.decomp_ne c2)
    | cons d ds =>
      have h4 := hU.start_decomp c2 h2 d ds hd
      have h5 := start_ccc hU h4
      rw [List.cons_append, reorder_cons_starter h5]
      simp only [recomp, h5, ne_eq, not_true_eq_false, if_false]
      exact head_recomp hU h4

/-! ### Last scalar -/

theorem end_cgj : isEnd CGJ = true := by decide +kernel
theorem end_nl : isEnd '\n' = true := by decide +kernel
theorem end_space : isEnd ' ' = true := by decide +kernel

theorem last_normChain (hU : TextLaws U) {s : List Char} (h : ∀ c ∈ s.getLast?, isEnd c = true) :
    ∀ c ∈ (normChain U s).getLast?, isEnd c = true := by
  intro e he
  apply Classical.byContradiction
  intro hne
  have hne : isEnd e = false := by simpa using hne
  have hi := hU.end_inert e hne
  have hec : e ≠ CGJ := by intro h; rw [h, end_cgj] at hne; simp at hne
  have ha : isAssigned U e = true := by simp [isAssigned, hU.end_assigned e hne]
  have hm := mem_normChain_inert hU hi hec (List.mem_of_getLast? he)
  -- split at the last occurrence
  have hsplit : ∀ (s : List Char), e ∈ s → ∃ x y, s = x ++ e :: y ∧ e ∉ y := by
    intro s
    induction s with
    | nil => intro h; simp at h
    | cons c s ih =>
      intro h
      by_cases h' : e ∈ s
      · obtain ⟨x, y, rfl, hy⟩ := ih h'
        exact ⟨c :: x, y, by simp, hy⟩
      · simp only [List.mem_cons] at h
        rcases h with rfl | h
        · exact ⟨[], s, rfl, h'⟩
        · exact absurd h h'
  obtain ⟨x, y, rfl, hy⟩ := hsplit s hm
  rw [normChain_split hU hi ha hec] at he
  by_cases hyn : y = []
  · subst hyn
    have := h e (by simp)
    rw [hne] at this; simp at this
  · have h1 := normChain_ne_nil hU hyn
    have : e ∈ normChain U y := by
      rw [List.getLast?_append, List.getLast?_cons] at he
      cases hl : (normChain U y).getLast? with
      | none => exact absurd (List.getLast?_eq_none_iff.1 hl) h1
      | some z =>
        rw [hl] at he
        simp at he
        rw [← he]; exact List.mem_of_getLast? hl
    exact hy (mem_normChain_inert hU hi hec this)

/-! ### Text predicates -/

theorem categorize_clean {s : List Char} :
    (!(categorize s).any (fun c => c == SUB || c == ESC)) = true ↔ ∀ c ∈ s, okChar c = true := by
  have key : ∀ c : Char, ((if (checkChar c).isSome then SUB else c) ≠ SUB ∧ (if (checkChar c).isSome then SUB else c) ≠ ESC) ↔ okChar c = true := by
    intro c
    unfold okChar
    cases h : checkChar c with
    | none =>
      have : c ≠ SUB := by
        rintro rfl
        have : (checkChar SUB).isSome = true := by decide +kernel
        rw [h] at this; simp at this
      simp [this]
    | some e => simp
  simp only [categorize, Bool.not_eq_true', List.any_eq_false, List.mem_map, forall_exists_index, and_imp,
    forall_apply_eq_imp_iff₂, Bool.or_eq_true, beq_iff_eq, not_or]
  exact ⟨fun h c hc => (key c).1 (h c hc), fun h c hc => (key c).2 (h c hc)⟩

theorem substr_iff {s : List Char} : isBasicTextSubstr U s = true ↔ (∀ c ∈ s, okChar c = true) ∧ U.isNfcStreamSafe s = true := by
  unfold isBasicTextSubstr
  rw [Bool.and_eq_true, categorize_clean]

theorem text_iff {s : List Char} : isBasicText U s = true ↔
    (∀ c ∈ s.head?, isStart U c = true) ∧ (∀ c ∈ s.getLast?, isEnd c = true) ∧ isBasicTextSubstr U s = true := by
  unfold isBasicText
  cases hs : s with
  | nil => simp
  | cons c s => simp [List.getLast?_cons]

end Verif
