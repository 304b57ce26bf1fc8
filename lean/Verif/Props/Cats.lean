import Verif.Cats
import Verif.NfcSpec
import Verif.WriterFacts
import Verif.Props.Strings

/-!
# `examples/nfc-cat.rs` and `examples/ssnfc-cat.rs` (C97)

`Steady src` and `bytesOf src = encode s`: the source delivers the UTF-8 of `s`, in any pieces.
-/

namespace Verif
open Ucd Spec

/-- C97: `nfc-cat` succeeds on every UTF-8 input, and what it writes is the NFC of the whole input with Unix line ends, though it works line by
line and skips lines that the quick check accepts. -/
theorem c97_nfc_cat (s : List Char) (src : List BufEvent) (hs : Steady src) (hb : bytesOf src = encode s) (fuel : Nat) (hf : s.length < fuel) :
    nfcCat ucd15 fuel src = some (encode (ucd15.nfc (unixLines s)), true) := by
  have := catLoop_ok (linewise_nfc lawful15) fuel s src [] hs hb hf
  simpa [nfcCat] using this

/-- C97: so does `ssnfc-cat`, for Stream-Safe NFC. -/
theorem c97_ssnfc_cat (s : List Char) (src : List BufEvent) (hs : Steady src) (hb : bytesOf src = encode s) (fuel : Nat) (hf : s.length < fuel) :
    ssnfcCat ucd15 fuel src = some (encode (ucd15.nfc (ucd15.streamSafe 0 (unixLines s))), true) := by
  have := catLoop_ok (linewise_ssnfc lawful15) fuel s src [] hs hb hf
  simpa [ssnfcCat] using this

/-- C97: what `nfc-cat` writes is in NFC and canonically equivalent to the input with Unix line ends. -/
theorem c97_nfc_output (s : List Char) (src : List BufEvent) (hs : Steady src) (hb : bytesOf src = encode s) (fuel : Nat) (hf : s.length < fuel) :
    ∃ out, nfcCat ucd15 fuel src = some (encode out, true) ∧ ucd15.nfc out = out ∧ ucd15.nfd out = ucd15.nfd (unixLines s) :=
  ⟨_, c97_nfc_cat s src hs hb fuel hf, nfc_nfc lawful15 _, nfd_nfc lawful15 _⟩

/-- C97: what `ssnfc-cat` writes is accepted by `is_nfc_stream_safe`. -/
theorem c97_ssnfc_output (s : List Char) (src : List BufEvent) (hs : Steady src) (hb : bytesOf src = encode s) (fuel : Nat) (hf : s.length < fuel) :
    ∃ out, ssnfcCat ucd15 fuel src = some (encode out, true) ∧ ucd15.isNfcStreamSafe out = true :=
  ⟨_, c97_ssnfc_cat s src hs hb fuel hf, isNfcStreamSafe_norm lawful15 _⟩

/-- C97: when the source fails, exactly the lines that were complete have been written, converted, and `main` returns an error.  `b` is the
beginning of a line, which need not be UTF-8. -/
theorem c97_failure (s : List Char) (b : Bytes) (h10 : 10 ∉ b) (src t : List BufEvent) (hs : Steady src) (hb : bytesOf src = encode s ++ b)
    (he : s = [] ∨ s.getLast? = some '\n') (fuel : Nat) (hf : s.length < fuel) :
    nfcCat ucd15 fuel (src ++ .err :: t) = some (encode (ucd15.nfc (unixLines s)), false) ∧
    ssnfcCat ucd15 fuel (src ++ .err :: t) = some (encode (ucd15.nfc (ucd15.streamSafe 0 (unixLines s))), false) := by
  have h1 := catLoop_fails (linewise_nfc lawful15) b h10 t fuel s src [] hs hb he hf
  have h2 := catLoop_fails (linewise_ssnfc lawful15) b h10 t fuel s src [] hs hb he hf
  exact ⟨by simpa [nfcCat] using h1, by simpa [ssnfcCat] using h2⟩

example : nfcCat ucd15 5 [.data (encode ['e', '́', '\r']), .interrupted, .data (encode ['\n', 'b'])] = some (encode ['é', '\n', 'b', '\n'], true) := by
  decide +kernel
example : ssnfcCat ucd15 9 [.data (encode ['e', '́', '\n', 'e', '́']), .err] = some (encode ['é', '\n'], false) := by decide +kernel
/-- The two programs differ on a long run of marks. -/
example : nfcCat ucd15 40 [.data (encode ('a' :: List.replicate 31 '̖'))] = some (encode ('a' :: List.replicate 31 '̖' ++ ['\n']), true) ∧
    ssnfcCat ucd15 40 [.data (encode ('a' :: List.replicate 31 '̖'))] =
      some (encode ('a' :: List.replicate 30 '̖' ++ [CGJ, '̖', '\n']), true) := by decide +kernel

/-! ## Text that is left alone, and running twice -/

/-- No U+D before a U+A. -/
def Spec.NoCrlf (t : List Char) : Prop := ∀ a b, t ≠ a ++ '\r' :: '\n' :: b

theorem unixLines_end (s : List Char) : unixLines s = [] ∨ (unixLines s).getLast? = some '\n' := by
  induction s with
  | nil => exact Or.inl rfl
  | cons c r ih =>
    rw [unixLines]
    split
    · exact ih
    · split
      · exact Or.inr rfl
      · rename_i h1 h2
        right
        rcases ih with h | h
        · rw [h]
          cases r with
          | nil => simp only [true_and, ne_eq, Decidable.not_not] at h2; rw [h2]; rfl
          | cons d r =>
            exfalso
            rw [unixLines] at h
            split at h
            · rename_i h3
              cases r with
              | nil => simp at h3
              | cons e r =>
                simp only [List.head?_cons, Option.some.injEq] at h3
                rw [h3.2, unixLines, if_neg (fun hc => absurd hc.1 (by decide))] at h
                split at h <;> simp at h
            · split at h <;> simp at h
        · rw [List.getLast?_cons, h]; rfl

theorem noCrlf_cons {c : Char} {r : List Char} : NoCrlf (c :: r) ↔ ¬ (c = '\r' ∧ r.head? = some '\n') ∧ NoCrlf r := by
  constructor
  · intro h
    refine ⟨?_, fun a b hab => h (c :: a) b (by rw [hab]; rfl)⟩
    rintro ⟨rfl, h2⟩
    cases r with
    | nil => simp at h2
    | cons d r => simp only [List.head?_cons, Option.some.injEq] at h2; exact h [] r (by rw [h2]; rfl)
  · rintro ⟨h1, h2⟩ a b hab
    cases a with
    | nil => injection hab with e1 e2; exact h1 ⟨e1, by rw [e2]; rfl⟩
    | cons x a => injection hab with e1 e2; exact h2 a b e2

theorem unixLines_self {t : List Char} (h : NoCrlf t) (he : t = [] ∨ t.getLast? = some '\n') : unixLines t = t := by
  induction t with
  | nil => rfl
  | cons c r ih =>
    rw [noCrlf_cons] at h
    rw [unixLines, if_neg h.1]
    have he : (c :: r).getLast? = some '\n' := by simpa using he
    cases r with
    | nil =>
      simp only [List.getLast?_singleton, Option.some.injEq] at he
      rw [if_neg (by simp [he])]; rfl
    | cons d r =>
      rw [List.getLast?_cons_cons] at he
      rw [if_neg (by simp), ih h.2 (Or.inr he)]

theorem unixLines_short (t : List Char) (he : t = [] ∨ t.getLast? = some '\n') :
    (unixLines t).length ≤ t.length ∧ ((unixLines t).length = t.length → NoCrlf t) := by
  induction t with
  | nil => exact ⟨Nat.le_refl _, fun _ a b h => by simp at h⟩
  | cons c r ih =>
    have he' : (c :: r).getLast? = some '\n' := by simpa using he
    have hr : r = [] ∨ r.getLast? = some '\n' := by
      cases r with
      | nil => exact Or.inl rfl
      | cons d r => rw [List.getLast?_cons_cons] at he'; exact Or.inr he'
    obtain ⟨h1, h2⟩ := ih hr
    rw [unixLines]
    split
    · exact ⟨by simp; omega, fun h => by simp at h; omega⟩
    · rename_i hc
      split
      · rename_i h3
        rw [h3.1] at he'
        simp at he'
        exact absurd he' h3.2
      · simp only [List.length_cons]
        exact ⟨by omega, fun h => noCrlf_cons.2 ⟨hc, h2 (by omega)⟩⟩

/-- The line ends are left alone exactly if they are Unix line ends. -/
theorem unixLines_fix {t : List Char} : unixLines t = t ↔ NoCrlf t ∧ (t = [] ∨ t.getLast? = some '\n') := by
  constructor
  · intro h
    have := unixLines_end t
    rw [h] at this
    exact ⟨(unixLines_short t this).2 (by rw [h]), this⟩
  · exact fun h => unixLines_self h.1 h.2

/-- The two conversions, as far as line ends are concerned. -/
structure Keeps (conv : List Char → List Char) : Prop where
  cr : ∀ x y, conv (x ++ '\r' :: y) = conv x ++ '\r' :: conv y
  nl : ∀ x y, conv (x ++ '\n' :: y) = conv x ++ '\n' :: conv y
  mem_cr : ∀ x, '\r' ∈ conv x → '\r' ∈ x
  mem_nl : ∀ x, '\n' ∈ conv x → '\n' ∈ x
  nil : conv [] = []
  of_nil : ∀ x, conv x = [] → x = []

theorem Keeps.noCrlf {conv : List Char → List Char} (k : Keeps conv) : ∀ (n : Nat) (x : List Char), x.length ≤ n → (NoCrlf (conv x) ↔ NoCrlf x) := by
  intro n
  induction n with
  | zero =>
    intro x hx
    have : x = [] := List.length_eq_zero_iff.1 (by omega)
    subst this; rw [k.nil]
  | succ n ih =>
    intro x hx
    by_cases hr : '\r' ∈ x
    · obtain ⟨a, y, rfl, ha⟩ := List.eq_append_cons_of_mem hr
      have iy := ih y (by simp at hx; omega)
      have app : ∀ (p q : List Char), '\r' ∉ p → (NoCrlf (p ++ q) ↔ NoCrlf q) := by
        intro p q hp
        induction p with
        | nil => rfl
        | cons c p ihp =>
          simp only [List.mem_cons, not_or] at hp
          rw [List.cons_append, noCrlf_cons, ihp hp.2]
          exact ⟨fun h => h.2, fun h => ⟨fun hc => hp.1 hc.1.symm, h⟩⟩
      rw [k.cr, app _ _ (fun h => ha (k.mem_cr _ h)), app _ _ ha, noCrlf_cons, noCrlf_cons, iy]
      have hh : (conv y).head? = some '\n' ↔ y.head? = some '\n' := by
        constructor
        · intro h
          cases y with
          | nil => rw [k.nil] at h; simp at h
          | cons d y =>
            by_cases hm : '\n' ∈ d :: y
            · obtain ⟨p, q, e, hp⟩ := List.eq_append_cons_of_mem hm
              cases p with
              | nil => rw [e]; rfl
              | cons d' p =>
                exfalso
                rw [e, k.nl] at h
                cases hcp : conv (d' :: p) with
                | nil => exact absurd (k.of_nil _ hcp) (by simp)
                | cons z zs =>
                  rw [hcp] at h
                  simp only [List.cons_append, List.head?_cons, Option.some.injEq] at h
                  exact hp (k.mem_nl _ (by rw [hcp, h]; simp))
            · exact absurd (k.mem_nl _ (List.mem_of_head? h)) hm
        · intro h
          cases y with
          | nil => simp at h
          | cons d y =>
            simp only [List.head?_cons, Option.some.injEq] at h
            rw [h, show '\n' :: y = [] ++ '\n' :: y from rfl, k.nl, k.nil]; rfl
      rw [hh]
    · have : '\r' ∉ conv x := fun h => hr (k.mem_cr _ h)
      constructor
      · intro _ a b hab; exact hr (by rw [hab]; simp)
      · intro _ a b hab; exact this (by rw [hab]; simp)

theorem Keeps.count {conv : List Char → List Char} (k : Keeps conv) : ∀ (n : Nat) (x : List Char), x.length ≤ n →
    (conv x).count '\r' = x.count '\r' := by
  intro n
  induction n with
  | zero =>
    intro x hx
    have : x = [] := List.length_eq_zero_iff.1 (by omega)
    subst this; rw [k.nil]
  | succ n ih =>
    intro x hx
    by_cases hr : '\r' ∈ x
    · obtain ⟨a, y, rfl, ha⟩ := List.eq_append_cons_of_mem hr
      rw [k.cr, List.count_append, List.count_append, List.count_cons_self, List.count_cons_self, ih y (by simp at hx; omega),
        List.count_eq_zero.2 ha, List.count_eq_zero.2 (fun h => ha (k.mem_cr _ h))]
    · rw [List.count_eq_zero.2 hr, List.count_eq_zero.2 (fun h => hr (k.mem_cr _ h))]

theorem unixLines_count (t : List Char) :
    (unixLines t).count '\r' ≤ t.count '\r' ∧ ((unixLines t).count '\r' = t.count '\r' → NoCrlf t) := by
  induction t with
  | nil => exact ⟨Nat.le_refl _, fun _ a b h => by simp at h⟩
  | cons c r ih =>
    obtain ⟨h1, h2⟩ := ih
    rw [unixLines]
    split
    · rename_i hc
      rw [hc.1, List.count_cons_self]
      exact ⟨by omega, fun h => by omega⟩
    · rename_i hc
      split
      · rename_i h3
        rw [h3.1]
        refine ⟨by simp [List.count_cons], fun _ => noCrlf_cons.2 ⟨by simp, fun a b h => by simp at h⟩⟩
      · simp only [List.count_cons]
        exact ⟨by omega, fun h => noCrlf_cons.2 ⟨hc, h2 (by omega)⟩⟩

theorem Keeps.twice {conv : List Char → List Char} (k : Keeps conv) (idem : ∀ x, conv (conv x) = conv x) (s : List Char) :
    conv (unixLines (conv (unixLines s))) = conv (unixLines s) ↔ NoCrlf (unixLines s) := by
  constructor
  · intro h
    have h1 := congrArg (List.count '\r') h
    rw [k.count _ _ (Nat.le_refl _)] at h1
    exact (k.noCrlf _ _ (Nat.le_refl _)).1 ((unixLines_count _).2 h1)
  · intro h
    rw [unixLines_self ((k.noCrlf _ _ (Nat.le_refl _)).2 h), idem]
    rcases unixLines_end s with h | h
    · rw [h, k.nil]; exact Or.inl rfl
    · right
      obtain ⟨l, hl⟩ := List.getLast?_eq_some_iff.1 h
      rw [hl, k.nl, k.nil]; simp

theorem ends_cr_cons {c : Char} {r : List Char} (h : r ≠ []) : (c :: r).getLast? = r.getLast? := by
  cases r with
  | nil => exact absurd rfl h
  | cons d r => exact List.getLast?_cons_cons

/-- Line ends made Unix line ends are Unix line ends, unless there was "\r\r\n", or a U+D at the end. -/
theorem noCrlf_unixLines (s : List Char) : NoCrlf (unixLines s) ↔ (∀ a b, s ≠ a ++ '\r' :: '\r' :: '\n' :: b) ∧ s.getLast? ≠ some '\r' := by
  have hd : ∀ r : List Char, (unixLines r).head? = some '\n' ↔ r.head? = some '\n' ∨ ∃ b, r = '\r' :: '\n' :: b := by
    intro r
    cases r with
    | nil => simp [unixLines]
    | cons c r =>
      rw [unixLines]
      split
      · rename_i h
        obtain ⟨rfl, h⟩ := h
        cases r with
        | nil => simp at h
        | cons d r =>
          simp only [List.head?_cons, Option.some.injEq] at h
          subst h
          rw [unixLines, if_neg (fun hc => absurd hc.1 (by decide)), if_neg (by simp)]
          simp
      · rename_i h
        split
        · rename_i h2; simp [h2.1, h2.2]
        · simp only [List.head?_cons, Option.some.injEq, List.cons.injEq]
          constructor
          · exact Or.inl
          · rintro (h3 | ⟨b, h3, h4⟩)
            · exact h3
            · exact absurd ⟨h3, by rw [h4]; rfl⟩ h
  induction s with
  | nil => exact ⟨fun _ => ⟨fun a b h => by simp at h, by simp⟩, fun _ a b h => by simp [unixLines] at h⟩
  | cons c r ih =>
    replace ih : NoCrlf (unixLines r) ↔ (∀ a b, r ≠ a ++ '\r' :: '\r' :: '\n' :: b) ∧ r.getLast? ≠ some '\r' := ih
    have h3 : (∀ a b, c :: r ≠ a ++ '\r' :: '\r' :: '\n' :: b) ↔ ¬ (c = '\r' ∧ ∃ b, r = '\r' :: '\n' :: b) ∧ ∀ a b, r ≠ a ++ '\r' :: '\r' :: '\n' :: b := by
      constructor
      · intro h
        refine ⟨?_, fun a b hab => h (c :: a) b (by rw [hab]; rfl)⟩
        rintro ⟨rfl, b, rfl⟩
        exact h [] b rfl
      · rintro ⟨h1, h2⟩ a b hab
        cases a with
        | nil => injection hab with e1 e2; exact h1 ⟨e1, b, e2⟩
        | cons x a => injection hab with e1 e2; exact h2 a b e2
    rw [unixLines, h3]
    split
    · rename_i h
      obtain ⟨rfl, h⟩ := h
      have hne : r ≠ [] := by intro hc; rw [hc] at h; simp at h
      rw [ih, ends_cr_cons hne]
      refine ⟨fun hh => ⟨⟨?_, hh.1⟩, hh.2⟩, fun hh => ⟨hh.1.2, hh.2⟩⟩
      rintro ⟨-, b, rfl⟩
      simp at h
    · rename_i h
      split
      · rename_i h2
        rw [h2.1]
        by_cases hc : c = '\r'
        · subst hc
          simp only [List.getLast?_singleton, ne_eq, not_true_eq_false, and_false, iff_false]
          exact fun hh => hh [] [] rfl
        · simp only [List.getLast?_singleton, ne_eq, Option.some.injEq, hc, not_false_eq_true, and_true, false_and, true_and]
          exact ⟨fun _ a b h => by simp at h, fun _ => noCrlf_cons.2 ⟨by simp [hc], noCrlf_cons.2 ⟨by simp, fun a b h => by simp at h⟩⟩⟩
      · rename_i h2
        rw [noCrlf_cons, ih, hd]
        by_cases hr : r = []
        · subst hr
          have : c = '\n' := by simpa using h2
          subst this; simp
        · rw [ends_cr_cons hr]
          have : ¬(c = '\r' ∧ (r.head? = some '\n' ∨ ∃ b, r = '\r' :: '\n' :: b)) ↔ ¬ (c = '\r' ∧ ∃ b, r = '\r' :: '\n' :: b) := by
            constructor
            · rintro h4 ⟨h5, h6⟩; exact h4 ⟨h5, Or.inr h6⟩
            · rintro h4 ⟨h5, h6 | h6⟩
              · exact h ⟨h5, h6⟩
              · exact h4 ⟨h5, h6⟩
          rw [this, and_assoc]

theorem nfc_of_nil {x : List Char} (h : ucd15.nfc x = []) : x = [] := by
  cases x with
  | nil => rfl
  | cons c x =>
    exfalso
    have h1 := nfd_nfc lawful15 (c :: x)
    rw [h] at h1
    cases hd : ucd15.decomp c with
    | nil => exact lawful15.decomp_ne c hd
    | cons d ds =>
      have : d ∈ ucd15.nfd (c :: x) := by
        unfold nfd; rw [mem_reorder, List.mem_flatMap]; exact ⟨c, by simp, by rw [hd]; simp⟩
      rw [← h1] at this
      exact absurd this (by simp [show ucd15.nfd [] = [] from rfl])

theorem keeps_nfc : Keeps ucd15.nfc where
  cr := nfc_split (inert_cr textLaws15)
  nl := nfc_split lawful15.inert_nl
  mem_cr _ := mem_nfc_inert lawful15 (inert_cr textLaws15)
  mem_nl _ := mem_nfc_inert lawful15 lawful15.inert_nl
  nil := rfl
  of_nil _ := nfc_of_nil

theorem keeps_ssnfc : Keeps (fun s => ucd15.nfc (ucd15.streamSafe 0 s)) where
  cr x y := by rw [streamSafe_split lawful15 (inert_cr textLaws15) (by decide), nfc_split (inert_cr textLaws15)]
  nl x y := by rw [streamSafe_split lawful15 lawful15.inert_nl (by decide), nfc_split lawful15.inert_nl]
  mem_cr x h := (mem_streamSafe (mem_nfc_inert lawful15 (inert_cr textLaws15) h)).resolve_right (by decide)
  mem_nl x h := (mem_streamSafe (mem_nfc_inert lawful15 lawful15.inert_nl h)).resolve_right (by decide)
  nil := rfl
  of_nil x h := by
    have := nfc_of_nil h
    cases x with
    | nil => rfl
    | cons c x => simp only [streamSafe] at this; split at this <;> simp at this

theorem ssnfc_idem (x : List Char) : ucd15.nfc (ucd15.streamSafe 0 (ucd15.nfc (ucd15.streamSafe 0 x))) = ucd15.nfc (ucd15.streamSafe 0 x) := by
  obtain ⟨h1, h2⟩ := (isNfcStreamSafe_iff lawful15).1 (isNfcStreamSafe_norm lawful15 x)
  rw [streamSafe_of_chk h1, h2]

/-- C97: running `nfc-cat` on what it wrote changes nothing, exactly if the input has no "\r\r\n" and does not end with U+D. -/
theorem c97_nfc_twice_iff (s : List Char) (src src' : List BufEvent) (hs : Steady src) (hb : bytesOf src = encode s) (fuel : Nat) (hf : s.length < fuel)
    (out : List Char) (h : nfcCat ucd15 fuel src = some (encode out, true)) (hs' : Steady src') (hb' : bytesOf src' = encode out) (fuel' : Nat)
    (hf' : out.length < fuel') :
    nfcCat ucd15 fuel' src' = some (encode out, true) ↔ (∀ a b, s ≠ a ++ '\r' :: '\r' :: '\n' :: b) ∧ s.getLast? ≠ some '\r' := by
  rw [c97_nfc_cat s src hs hb fuel hf] at h
  simp only [Option.some.injEq, Prod.mk.injEq, and_true] at h
  have e := encode_injective h
  subst e
  rw [c97_nfc_cat _ src' hs' hb' fuel' hf', ← noCrlf_unixLines, ← keeps_nfc.twice (nfc_nfc lawful15)]
  simp only [Option.some.injEq, Prod.mk.injEq, and_true]
  exact ⟨encode_injective, fun h => by rw [h]⟩

/-- C97: the same for `ssnfc-cat`. -/
theorem c97_ssnfc_twice_iff (s : List Char) (src src' : List BufEvent) (hs : Steady src) (hb : bytesOf src = encode s) (fuel : Nat) (hf : s.length < fuel)
    (out : List Char) (h : ssnfcCat ucd15 fuel src = some (encode out, true)) (hs' : Steady src') (hb' : bytesOf src' = encode out) (fuel' : Nat)
    (hf' : out.length < fuel') :
    ssnfcCat ucd15 fuel' src' = some (encode out, true) ↔ (∀ a b, s ≠ a ++ '\r' :: '\r' :: '\n' :: b) ∧ s.getLast? ≠ some '\r' := by
  rw [c97_ssnfc_cat s src hs hb fuel hf] at h
  simp only [Option.some.injEq, Prod.mk.injEq, and_true] at h
  have e := encode_injective h
  subst e
  rw [c97_ssnfc_cat _ src' hs' hb' fuel' hf', ← noCrlf_unixLines, ← keeps_ssnfc.twice ssnfc_idem]
  simp only [Option.some.injEq, Prod.mk.injEq, and_true]
  exact ⟨encode_injective, fun h => by rw [h]⟩

/-- C97, as stated, is false: neither program is idempotent. -/
theorem c97_refuted_idempotent : nfcCat ucd15 9 [.data (encode ['a', '\r'])] = some (encode ['a', '\r', '\n'], true) ∧
    nfcCat ucd15 9 [.data (encode ['a', '\r', '\n'])] = some (encode ['a', '\n'], true) ∧
    ssnfcCat ucd15 9 [.data (encode ['\r', '\r', '\n'])] = some (encode ['\r', '\n'], true) ∧
    ssnfcCat ucd15 9 [.data (encode ['\r', '\n'])] = some (encode ['\n'], true) := by decide +kernel

/-- C97: both programs copy Basic Text that is empty or ends with a newline byte for byte. -/
theorem c97_text_unchanged (s : List Char) (hv : fromText (isBasicText ucd15) s = .ok s) (hn : s = [] ∨ s.getLast? = some '\n')
    (src : List BufEvent) (hs : Steady src) (hb : bytesOf src = encode s) (fuel : Nat) (hf : s.length < fuel) :
    nfcCat ucd15 fuel src = some (encode s, true) ∧ ssnfcCat ucd15 fuel src = some (encode s, true) := by
  obtain ⟨h1, h2⟩ := substr_iff.1 (text_iff.1 (fromText_ok_iff.1 hv).1).2.2
  have hr : '\r' ∉ s := fun h => absurd (h1 _ h) (by decide)
  obtain ⟨h3, h4⟩ := (isNfcStreamSafe_iff lawful15).1 h2
  have h5 : unixLines s = s := unixLines_self (fun a b h => hr (by rw [h]; simp)) hn
  rw [c97_nfc_cat s src hs hb fuel hf, c97_ssnfc_cat s src hs hb fuel hf, h5, streamSafe_of_chk h3, h4]
  exact ⟨rfl, rfl⟩

example : fromText (isBasicText ucd15) ['é', '\n', 'b', '\n'] = .ok ['é', '\n', 'b', '\n'] := by decide +kernel

end Verif
