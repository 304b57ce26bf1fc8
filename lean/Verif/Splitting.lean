import Verif.TextLaws

/-!
# Normalization of concatenations, substrings, first and last scalars
-/

namespace Verif
namespace Ucd
variable {U : Ucd}

/-! ## Splitting at an inert scalar -/

theorem recomp_first {b : Char} (hb : ∀ x, U.compose b x = none) {y : List Char} :
    ∀ {last : Option Nat} {buf : List Char}, (∀ l, last = some l → l ≠ 0) → (last = none → buf = []) →
    U.recomp (some b) last buf y = b :: buf ++ U.recomp none none [] y := by
  induction y with
  | nil => intro last buf _ _; simp [recomp]
  | cons ch r ih =>
    intro last buf hl hbuf
    cases last with
    | none =>
      simp only [recomp, hb, hbuf rfl]
      by_cases hc : U.ccc ch = 0
      · simp [hc]
      · rw [if_neg hc, if_pos hc, ih (by intro l h; injection h with h; omega) (by simp)]
        simp
    | some l =>
      simp only [recomp, hb]
      by_cases hc : U.ccc ch = 0
      · simp [hc]
      · rw [if_neg hc, if_pos hc]
        have := ih (last := some (U.ccc ch)) (buf := buf ++ [ch]) (by intro l h; injection h with h; omega) (by simp)
        split <;> · rw [this]; simp

theorem recomp_split {b : Char} (h0 : U.ccc b = 0) (h1 : ∀ x, U.compose b x = none) (h2 : ∀ x, U.compose x b = none)
    {x y : List Char} : ∀ {st : Option Char} {last : Option Nat} {buf : List Char}, (st = none → buf = []) → 
    (last = none → buf = []) →
    U.recomp st last buf (x ++ b :: y) = U.recomp st last buf x ++ b :: U.recomp none none [] y := by
  have hf : U.recomp (some b) none [] y = b :: U.recomp none none [] y := by
    rw [recomp_first h1 (by simp) (by simp)]; rfl
  induction x with
  | nil =>
    intro st last buf hst hlast
    match st, last with
    | none, _ => simp [recomp, h0, hf, hst]
    | some k, none => simp [recomp, h0, h2, hf, hlast]
    | some k, some l => simp [recomp, h0, hf]
  | cons ch r ih =>
    intro st last buf hst hlast
    match st, last with
    | none, _ =>
      simp only [List.cons_append, recomp]
      split
      · rw [ih (by simp) (by simp)]; rfl
      · exact ih (by simp) (by simp)
    | some k, none =>
      simp only [List.cons_append, recomp]
      split
      · exact ih (by simp) hlast
      · split
        · rw [ih (by simp) (by simp)]; rfl
        · exact ih (by simp) (by simp)
    | some k, some l =>
      simp only [List.cons_append, recomp]
      split
      · split
        · rw [ih (by simp) (by simp)]; simp
        · exact ih (by simp) (by simp)
      · split
        · exact ih (by simp) (by simp)
        · exact ih (by simp) (by simp)

theorem nfc_split {b : Char} (hb : U.Inert b) (x y : List Char) :
    U.nfc (x ++ b :: y) = U.nfc x ++ b :: U.nfc y := by
  have : U.nfd (x ++ b :: y) = U.nfd x ++ b :: U.nfd y := by
    unfold nfd
    rw [List.flatMap_append, List.flatMap_cons, hb.decomp, List.singleton_append, reorder_append, reorder_cons_starter hb.ccc]
    intro z hz
    simp only [List.head?_cons, Option.mem_def, Option.some.injEq] at hz
    rw [← hz]; exact hb.ccc
  unfold nfc
  rw [this, recomp_split hb.ccc hb.first hb.second (by simp) (by simp)]

theorem nxt_inert {b : Char} (hb : U.Inert b) (n : Nat) : U.nxt n b = 0 := by
  have := hb.dlen
  simp only [nxt, hb.lead, hb.trail]
  rw [if_neg (fun h => this h.symm)]

theorem streamSafe_split (hU : U.Lawful) {b : Char} (hb : U.Inert b) {x y : List Char} : ∀ {n : Nat}, n ≤ maxNonstarters →
    U.streamSafe n (x ++ b :: y) = U.streamSafe n x ++ b :: U.streamSafe 0 y := by
  induction x with
  | nil =>
    intro n hn
    simp only [List.nil_append, streamSafe, hb.lead, nxt_inert hb]
    rw [if_neg (by omega)]
  | cons c x ih =>
    intro n hn
    have hl := hU.lead_le c
    have ht := hU.trail_le c
    simp only [List.cons_append, streamSafe]
    split
    · rw [ih (nxt_le _ _ (by omega) ht)]; simp
    · rw [ih (nxt_le _ _ (by omega) ht)]; simp

theorem cjkVariants_split {b : Char} (hb : U.Inert b) (x y : List Char) :
    U.cjkVariants (x ++ b :: y) = U.cjkVariants x ++ b :: U.cjkVariants y := by
  simp [cjkVariants, hb.cjk]

/-! ## Scalars of the output -/

theorem mem_recomp {x : Char} {s : List Char} : ∀ {st : Option Char} {last : Option Nat} {buf : List Char},
    x ∈ U.recomp st last buf s → x ∈ s ∨ x ∈ buf ∨ st = some x ∨ ∃ k b, U.compose k b = some x := by
  induction s with
  | nil =>
    intro st last buf h
    cases st <;> simp [recomp] at h ⊢ <;> grind
  | cons ch r ih =>
    intro st last buf h
    match st, last with
    | none, _ =>
      simp only [recomp] at h
      split at h
      · simp only [List.mem_cons] at h
        rcases h with rfl | h
        · simp
        · have := ih h; grind
      · have := ih h; grind
    | some k, none =>
      simp only [recomp] at h
      split at h
      · have := ih h; grind
      · split at h
        · simp only [List.mem_cons] at h
          rcases h with rfl | h
          · simp
          · have := ih h; grind
        · have := ih h; grind
    | some k, some l =>
      simp only [recomp] at h
      split at h
      · split at h
        · simp only [List.mem_cons, List.mem_append, List.cons_append] at h
          rcases h with rfl | h | h
          · simp
          · grind
          · have := ih h; grind
        · have := ih h; grind
      · split at h
        · have := ih h; grind
        · have := ih h; grind

theorem mem_nfc {x : Char} {s : List Char} (h : x ∈ U.nfc s) :
    (∃ c ∈ s, x ∈ U.decomp c) ∨ ∃ k b, U.compose k b = some x := by
  rcases mem_recomp h with h | h | h | h
  · left
    unfold nfd at h
    rw [mem_reorder, List.mem_flatMap] at h
    exact h
  · simp at h
  · simp at h
  · exact Or.inr h

theorem mem_nfc_inert (hU : U.Lawful) {x : Char} (hx : U.Inert x) {s : List Char} (h : x ∈ U.nfc s) : x ∈ s := by
  rcases mem_nfc h with ⟨c, hc, h⟩ | ⟨k, b, h⟩
  · rw [hx.only c h] at hc; exact hc
  · have h1 := hU.compose_decomp _ _ _ h
    have h2 := hU.decomp_ne k
    rw [hx.decomp] at h1
    have := congrArg List.length h1
    simp only [List.length_append, List.length_cons, List.length_nil] at this
    have : U.decomp k = [] := List.length_eq_zero_iff.1 (by omega)
    exact absurd this h2

theorem mem_streamSafe {x : Char} {s : List Char} : ∀ {n : Nat}, x ∈ U.streamSafe n s → x ∈ s ∨ x = CGJ := by
  induction s with
  | nil => intro n h; simp [streamSafe] at h
  | cons c s ih =>
    intro n h
    simp only [streamSafe] at h
    split at h
    · simp only [List.mem_cons] at h ⊢
      rcases h with h | h | h
      · exact Or.inr h
      · exact Or.inl (Or.inl h)
      · have := ih h; grind
    · simp only [List.mem_cons] at h ⊢
      rcases h with h | h
      · exact Or.inl (Or.inl h)
      · have := ih h; grind

theorem streamSafe_length {s : List Char} : ∀ {n : Nat}, s.length ≤ (U.streamSafe n s).length := by
  induction s with
  | nil => intro n; simp
  | cons c s ih =>
    intro n
    simp only [streamSafe]
    split
    · have := ih (n := U.nxt 0 c); simp; omega
    · have := ih (n := U.nxt n c); simp; omega

theorem recomp_ne_nil {s : List Char} : ∀ {st : Option Char} {last : Option Nat} {buf : List Char},
    (st ≠ none ∨ s ≠ []) → U.recomp st last buf s ≠ [] := by
  induction s with
  | nil =>
    intro st last buf h
    cases st with
    | none => simp at h
    | some k => simp [recomp]
  | cons ch r ih =>
    intro st last buf _
    match st, last with
    | none, _ =>
      simp only [recomp]
      split
      · simp
      · exact ih (by simp)
    | some k, none =>
      simp only [recomp]
      split
      · exact ih (by simp)
      · split
        · simp
        · exact ih (by simp)
    | some k, some l =>
      simp only [recomp]
      split
      · split
        · simp
        · exact ih (by simp)
      · split <;> exact ih (by simp)

theorem nfc_ne_nil (hU : U.Lawful) {s : List Char} (h : s ≠ []) : U.nfc s ≠ [] := by
  unfold nfc
  apply recomp_ne_nil
  right
  cases s with
  | nil => simp at h
  | cons c s =>
    obtain ⟨d, hd⟩ := List.exists_mem_of_ne_nil _ (hU.decomp_ne c)
    apply List.ne_nil_of_mem (a := d)
    unfold nfd
    rw [mem_reorder, List.mem_flatMap]
    exact ⟨c, by simp, hd⟩

/-! ## Substrings and concatenations of NFC text -/

theorem lc_weaken {s : List Char} : ∀ {st : Option Char} {last : Option Nat}, Lc U st last s →
    Lc U none none s := by
  have aux : ∀ (s : List Char) (st : Option Char) (last : Option Nat), Lc U st last s → Lc U none last s := by
    intro s
    induction s with
    | nil => intros; trivial
    | cons c s ih =>
      intro st last h
      simp only [Lc] at h ⊢
      refine ⟨h.1, ?_⟩
      have h := h.2
      split
      · rename_i hc
        rw [if_pos hc] at h
        exact ⟨by simp, h.2⟩
      · rename_i hc
        rw [if_neg hc] at h
        exact ⟨h.1, by simp, ih _ _ h.2.2⟩
  intro st last h
  have h := aux s st last h
  cases s with
  | nil => trivial
  | cons c s =>
    simp only [Lc] at h ⊢
    refine ⟨h.1, ?_⟩
    have h := h.2
    split
    · rename_i hc
      rw [if_pos hc] at h
      exact ⟨by simp, h.2⟩
    · rename_i hc
      rw [if_neg hc] at h
      exact ⟨by simp, by simp, h.2.2⟩

theorem lc_prefix {a b : List Char} : ∀ {st : Option Char} {last : Option Nat}, Lc U st last (a ++ b) → Lc U st last a := by
  induction a with
  | nil => intros; trivial
  | cons c a ih =>
    intro st last h
    simp only [List.cons_append, Lc] at h ⊢
    refine ⟨h.1, ?_⟩
    have h := h.2
    split
    · rename_i hc
      rw [if_pos hc] at h
      exact ⟨h.1, ih h.2⟩
    · rename_i hc
      rw [if_neg hc] at h
      exact ⟨h.1, h.2.1, ih h.2.2⟩

theorem lc_suffix {a b : List Char} : ∀ {st : Option Char} {last : Option Nat}, Lc U st last (a ++ b) → Lc U none none b := by
  induction a with
  | nil => intro st last h; exact lc_weaken h
  | cons c a ih =>
    intro st last h
    simp only [List.cons_append, Lc] at h
    have h := h.2
    split at h
    · exact ih h.2
    · exact ih h.2.2

theorem lc_append {a b : List Char} (hb : Lc U none none b)
    (hh : ∀ c ∈ b.head?, U.ccc c = 0 ∧ ∀ d ds, U.decomp c = d :: ds → ∀ x, U.compose x d = none) :
    ∀ {st : Option Char} {last : Option Nat}, Lc U st last a → Lc U st last (a ++ b) := by
  induction a with
  | nil =>
    intro st last _
    cases b with
    | nil => trivial
    | cons c b =>
      have hh := hh c (by simp)
      simp only [List.nil_append, Lc, hh.1, if_true] at hb ⊢
      exact ⟨hb.1, fun x _ _ d ds hd => hh.2 d ds hd x, hb.2.2⟩
  | cons c a ih =>
    intro st last h
    simp only [List.cons_append, Lc] at h ⊢
    refine ⟨h.1, ?_⟩
    have h := h.2
    split
    · rename_i hc
      rw [if_pos hc] at h
      exact ⟨h.1, ih h.2⟩
    · rename_i hc
      rw [if_neg hc] at h
      exact ⟨h.1, h.2.1, ih h.2.2⟩

theorem chk_mono {s : List Char} : ∀ {m n : Nat}, m ≤ n → (U.chk n s).isSome → (U.chk m s).isSome := by
  induction s with
  | nil => intros; rfl
  | cons c s ih =>
    intro m n hmn h
    simp only [chk] at h ⊢
    split at h
    · simp at h
    · rw [if_neg (by omega)]
      refine ih ?_ h
      simp only [nxt]; split <;> omega

theorem chk_prefix {a b : List Char} {n : Nat} (h : (U.chk n (a ++ b)).isSome) : (U.chk n a).isSome := by
  rw [chk_append] at h
  cases hc : U.chk n a with
  | none => simp [hc] at h
  | some m => rfl

theorem chk_suffix {a b : List Char} {n : Nat} (h : (U.chk n (a ++ b)).isSome) : (U.chk 0 b).isSome := by
  rw [chk_append] at h
  cases hc : U.chk n a with
  | none => simp [hc] at h
  | some m =>
    simp only [hc, Option.bind_some] at h
    exact chk_mono (Nat.zero_le _) h

theorem chk_le (hU : U.Lawful) {s : List Char} : ∀ {n m : Nat}, n ≤ maxNonstarters → U.chk n s = some m → m ≤ maxNonstarters := by
  induction s with
  | nil => intro n m hn h; simp [chk] at h; omega
  | cons c s ih =>
    intro n m hn h
    simp only [chk] at h
    split at h
    · simp at h
    · exact ih (nxt_le _ _ (by omega) (hU.trail_le c)) h

theorem chk_concat (hU : U.Lawful) {a b : List Char} (hh : ∀ c ∈ b.head?, U.lead c = 0 ∧ U.dlen c ≠ 0) {n : Nat}
    (hn : n ≤ maxNonstarters) (ha : (U.chk n a).isSome) (hb : (U.chk 0 b).isSome) : (U.chk n (a ++ b)).isSome := by
  rw [chk_append]
  obtain ⟨m, hm⟩ := Option.isSome_iff_exists.1 ha
  rw [hm, Option.bind_some]
  have hm := chk_le hU hn hm
  cases b with
  | nil => rfl
  | cons c b =>
    have hh := hh c (by simp)
    simp only [chk, hh.1, nxt] at hb ⊢
    rw [if_neg (by omega)]
    rw [if_neg (by omega), if_neg (fun h => hh.2 h.symm)] at hb
    rw [if_neg (fun h => hh.2 h.symm)]
    exact hb

/-! ### `is_nfc_stream_safe` -/

theorem nss_iff (hU : U.Lawful) {s : List Char} : U.isNfcStreamSafe s = true ↔ (U.chk 0 s).isSome ∧ Lc U none none s := by
  rw [isNfcStreamSafe_iff hU, nfc_eq_iff_lc hU]

theorem nss_prefix (hU : U.Lawful) {a b : List Char} (h : U.isNfcStreamSafe (a ++ b) = true) : U.isNfcStreamSafe a = true := by
  rw [nss_iff hU] at h ⊢
  exact ⟨chk_prefix h.1, lc_prefix h.2⟩

theorem nss_suffix (hU : U.Lawful) {a b : List Char} (h : U.isNfcStreamSafe (a ++ b) = true) : U.isNfcStreamSafe b = true := by
  rw [nss_iff hU] at h ⊢
  exact ⟨chk_suffix h.1, lc_suffix h.2⟩

theorem nss_append (hU : U.Lawful) {a b : List Char} (ha : U.isNfcStreamSafe a = true) (hb : U.isNfcStreamSafe b = true)
    (hh : ∀ c ∈ b.head?, U.ccc c = 0 ∧ U.lead c = 0 ∧ U.dlen c ≠ 0 ∧ ∀ d ds, U.decomp c = d :: ds → ∀ x, U.compose x d = none) :
    U.isNfcStreamSafe (a ++ b) = true := by
  rw [nss_iff hU] at ha hb ⊢
  exact ⟨chk_concat hU (fun c hc => ⟨(hh c hc).2.1, (hh c hc).2.2.1⟩) (Nat.zero_le _) ha.1 hb.1,
    lc_append hb.2 (fun c hc => ⟨(hh c hc).1, (hh c hc).2.2.2⟩) ha.2⟩

/-- An inert scalar separates: text around it is normalized independently. -/
theorem nss_inert (hU : U.Lawful) {b : Char} (hb : U.Inert b) {x y : List Char} :
    U.isNfcStreamSafe (x ++ b :: y) = true ↔ U.isNfcStreamSafe x = true ∧ U.isNfcStreamSafe y = true := by
  constructor
  · intro h
    exact ⟨nss_prefix hU h, nss_suffix hU (a := x ++ [b]) (by simpa using h)⟩
  · intro ⟨hx, hy⟩
    rw [isNfcStreamSafe_iff hU] at hx hy ⊢
    rw [nfc_split hb, hx.2, hy.2]
    refine ⟨chk_concat hU ?_ (Nat.zero_le _) hx.1 ?_, rfl⟩
    · intro c hc
      simp only [List.head?_cons, Option.mem_def, Option.some.injEq] at hc
      rw [← hc]; exact ⟨hb.lead, hb.dlen⟩
    · rw [chk_cons, chk_inert hb 0 (Nat.zero_le _)]; exact hy.1

theorem nss_nil : U.isNfcStreamSafe [] = true := rfl

theorem nss_inert_concat (hU : U.Lawful) {b : Char} (hb : U.Inert b) {x : List Char} :
    U.isNfcStreamSafe (x ++ [b]) = true ↔ U.isNfcStreamSafe x = true := by
  rw [nss_inert hU hb]; simp [nss_nil]

theorem cjk_of_nss (hU : U.Lawful) {s : List Char} (h : U.isNfcStreamSafe s = true) : U.cjkVariants s = s := by
  rw [nss_iff hU] at h
  have : ∀ (s : List Char) (st : Option Char) (last : Option Nat), Lc U st last s → U.cjkVariants s = s := by
    intro s
    induction s with
    | nil => intros; rfl
    | cons c s ih =>
      intro st last h
      simp only [Lc] at h
      have h1 : U.cjk c = [c] := by
        apply Classical.byContradiction
        intro hc
        exact h.1.qc_ne_no hU (hU.cjk_no c hc)
      have h2 : U.cjkVariants s = s := by
        have h := h.2
        split at h
        · exact ih _ _ h.2
        · exact ih _ _ h.2.2
      unfold cjkVariants at h2 ⊢
      rw [List.flatMap_cons, h1, h2]; rfl
  exact this s _ _ h.2

end Ucd
end Verif
