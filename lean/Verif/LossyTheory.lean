import Verif.SliceTheory
import Verif.ReaderFacts
import Verif.ReaderLive
import Verif.WriterReader

/-!
# Lossy conversion of strings
-/

namespace Verif
open Ucd Spec
variable {U : Ucd}

/-! ## Reading to the end -/

theorem readToEnd_run : ∀ (lens : List Nat) (t : TextInput) (src : List Event) (text : List Char),
    readToEnd U lens t src = some text →
    ∃ lens' r n, lens' <+: lens ∧ (readMany U lens' t src).getLast? = some r ∧ r.ret = .ok n .end_ ∧
      delivered (readMany U lens' t src) = text := by
  intro lens
  induction lens with
  | nil => intro t src text h; simp [readToEnd] at h
  | cons len lens ih =>
    intro t src text h
    rw [readToEnd] at h
    split at h
    · rename_i n hr
      injection h with h
      refine ⟨[len], _, n, ⟨lens, rfl⟩, rfl, hr, ?_⟩
      simp [readMany, delivered, hr, Ret.isOk, h]
    · rename_i n st hne hr
      cases hq : readToEnd U lens (readWithStatus U len t src).input (readWithStatus U len t src).src with
      | none => rw [hq] at h; simp at h
      | some text' =>
        rw [hq] at h
        simp only [Option.map_some, Option.some.injEq] at h
        obtain ⟨lens', r, n', ⟨m, hp⟩, h1, h2, h3⟩ := ih _ _ _ hq
        refine ⟨len :: lens', r, n', ⟨m, by rw [List.cons_append, hp]⟩, ?_, h2, ?_⟩
        · rw [readMany]
          rw [List.getLast?_cons, h1]; rfl
        · rw [readMany]
          rw [← h]
          simp only [delivered, List.flatMap_cons, hr, Ret.isOk, if_true]
          rw [← h3]; rfl
    · simp at h

/-- A read with a large enough buffer from a source that does not fail succeeds unless it panics. -/
theorem read_no_err {len : Nat} (hl : normalizationBufferSize ≤ len) {t : TextInput} {src : List Event} (hs : ∀ e ∈ src, e ≠ .err)
    (hp : (readWithStatus U len t src).ret ≠ .panic) :
    (∃ n st, (readWithStatus U len t src).ret = .ok n st) ∧ ∀ e ∈ (readWithStatus U len t src).src, e ≠ .err := by
  have hn : ∀ e ∈ (nextEvent src).2, e ≠ .err := by
    cases src with
    | nil => simp [nextEvent]
    | cons e src => intro x hx; exact hs x (List.mem_cons_of_mem _ hx)
  revert hp
  unfold readWithStatus
  rw [if_neg (by omega)]
  split
  · intro hp; simp at hp
  · intro _; exact ⟨⟨_, _, rfl⟩, hs⟩
  · split
    · intro _; exact ⟨⟨_, _, rfl⟩, hs⟩
    · split
      · rename_i src' he
        exfalso
        cases src with
        | nil => simp [nextEvent] at he
        | cons e src =>
          simp only [nextEvent, Prod.mk.injEq] at he
          exact hs e (by simp) he.1
      · rename_i s st src' he
        rw [he] at hn
        simp only at hn ⊢
        split
        · intro hp; simp at hp
        · intro _; exact ⟨⟨_, _, rfl⟩, hn⟩
        · intro _; exact ⟨⟨_, _, rfl⟩, hn⟩

theorem readToEnd_exists : ∀ (lens : List Nat) (t : TextInput) (src : List Event), (∀ n ∈ lens, normalizationBufferSize ≤ n) →
    (∀ e ∈ src, e ≠ .err) → (∀ r ∈ readMany U lens t src, r.ret ≠ .panic) →
    (∃ r n, (readMany U lens t src).getLast? = some r ∧ r.ret = .ok n .end_) → ∃ text, readToEnd U lens t src = some text := by
  intro lens
  induction lens with
  | nil => intro t src _ _ _ ⟨r, n, h, _⟩; simp [readMany] at h
  | cons len lens ih =>
    intro t src hl hs hp ⟨r, n, h1, h2⟩
    rw [readMany] at h1 hp
    obtain ⟨⟨k, st, hr⟩, hs'⟩ := read_no_err (U := U) (t := t) (hl len (by simp)) hs (hp _ (by simp))
    rw [readToEnd]
    split
    · exact ⟨_, rfl⟩
    · rename_i hne hr'
      have hrest : ∃ r n, (readMany U lens (readWithStatus U len t src).input (readWithStatus U len t src).src).getLast? = some r ∧ r.ret = .ok n .end_ := by
        rw [List.getLast?_cons] at h1
        cases hq : (readMany U lens (readWithStatus U len t src).input (readWithStatus U len t src).src).getLast? with
        | none =>
          rw [hq] at h1
          simp only [Option.getD_none, Option.some.injEq] at h1
          rw [← h1] at h2
          rw [h2] at hr'
          injection hr' with hn hst
          exact absurd hst.symm hne
        | some r' =>
          rw [hq] at h1
          simp only [Option.getD_some, Option.some.injEq] at h1
          exact ⟨r', n, rfl, h1 ▸ h2⟩
      obtain ⟨text, ht⟩ := ih _ _ (fun n hn => hl n (List.mem_cons_of_mem _ hn)) hs' (fun r hr => hp r (List.mem_cons_of_mem _ hr)) hrest
      exact ⟨_, by rw [ht]; rfl⟩
    · rename_i hne
      rw [hr] at hne
      exact absurd rfl (hne _ _)

/-- `read_to_string` on a source that does not fail comes to an end. -/
theorem readToEnd_total (hU : TextLaws U) (nel lsps : Bool) {src : List Event} (hs : ∀ e ∈ src, e ≠ .err) (lens : Nat → Nat)
    (hl : ∀ i, normalizationBufferSize ≤ lens i) : ∃ n text, readToEnd U ((List.range n).map lens) (.new nel lsps) src = some text := by
  obtain ⟨n, r, h1, k, h2⟩ := reach hU (ctl_new (U := U) nel lsps) lens hl (.new nel lsps) src [] [] 1 0 (Rel.init nel lsps) (by simp)
  rw [← List.range_eq_range'] at h1
  obtain ⟨_, -, -, -, hp⟩ := run_rel hU ((List.range n).map lens) (.new nel lsps) src [] [] (Rel.init nel lsps)
  refine ⟨n, readToEnd_exists _ _ _ ?_ hs hp ⟨r, k, h1, h2⟩⟩
  intro m hm
  obtain ⟨i, -, rfl⟩ := List.mem_map.1 hm
  exact hl i

/-- How the reader of a byte slice cuts up its content: the first read returns something unless there is nothing. -/
def SliceReads (chunks : List (List Char)) (last : List Char) : Prop :=
  (chunks ++ [last]).head? ≠ some [] ∨ chunks.flatten ++ last = []

theorem SliceReads.bomSafe {chunks : List (List Char)} {last : List Char} (h : SliceReads chunks last) : BomSafe chunks last := by
  rcases h with h | h
  · exact Or.inl h
  · exact Or.inr (by rw [h]; simp)

/-! ## The text before the final newline -/

/-- The last token is a newline only if the text ends with one. -/
theorem tokens_nl_last {fin : Char → Bool} : ∀ (n : Nat) (s : List Char), s.length ≤ n →
    (tokens fin (single false false) s).getLast? = some .nl → s.getLast? = some '\n' ∨ s.getLast? = some '\r' := by
  intro n
  induction n with
  | zero =>
    intro s hs h
    have : s = [] := List.length_eq_zero_iff.1 (by omega)
    subst this; simp [tokens] at h
  | succ n ih =>
    intro s hs h
    cases s with
    | nil => simp [tokens] at h
    | cons c r =>
      simp only [List.length_cons] at hs
      -- from a suffix of the rest to the whole
      have up : ∀ r' : List Char, r' <:+ r → r' ≠ [] → (r'.getLast? = some '\n' ∨ r'.getLast? = some '\r') →
          (c :: r).getLast? = some '\n' ∨ (c :: r).getLast? = some '\r' := by
        rintro r' ⟨t, rfl⟩ hne h
        have : (c :: (t ++ r')).getLast? = r'.getLast? := by
          rw [← List.cons_append, List.getLast?_append]
          cases hq : r'.getLast? with
          | none => rw [List.getLast?_eq_none_iff] at hq; exact absurd hq hne
          | some x => rfl
        rw [this]; exact h
      have go : ∀ (t : Tok) (r' : List Char), r' <:+ r → (t :: tokens fin (single false false) r').getLast? = some .nl →
          (r' = [] → t ≠ .nl) → (c :: r).getLast? = some '\n' ∨ (c :: r).getLast? = some '\r' := by
        intro t r' hsuf hl ht
        by_cases hr : r' = []
        · subst hr
          simp [tokens] at hl
          exact absurd hl (ht rfl)
        · have hne := tokens_ne_nil (fin := fin) (one := single false false) _ r' (Nat.le_refl _) hr
          refine up r' hsuf hr (ih r' ?_ ?_)
          · have := hsuf.length_le; omega
          · rw [List.getLast?_cons] at hl
            cases hq : (tokens fin (single false false) r').getLast? with
            | none => rw [List.getLast?_eq_none_iff] at hq; exact absurd hq hne
            | some x => rw [hq] at hl; simpa using hl
      rw [tokens] at h
      split at h
      · rename_i hc
        by_cases hr : r = []
        · subst hr hc; simp
        · exact go _ r (List.suffix_refl _) h (fun hh => absurd hh hr)
      · split at h
        · rename_i hc
          have hsuf : dropOne (· = '\n') r <:+ r := by
            unfold dropOne
            split
            · split
              · exact ⟨[_], rfl⟩
              · exact List.suffix_refl _
            · exact List.suffix_refl _
          by_cases hr : dropOne (· = '\n') r = []
          · cases r with
            | nil => subst hc; simp
            | cons d r =>
              unfold dropOne at hr
              simp only at hr
              split at hr
              · rename_i hd
                simp only [decide_eq_true_eq] at hd
                subst hr hd; simp
              · simp at hr
          · exact go _ _ hsuf h (fun hh => absurd hh hr)
        · split at h
          · simp only at h
            have hsuf : r.dropWhile (· = FF) <:+ r := List.dropWhile_suffix _
            split at h
            · rename_i hh
              have hne : r.dropWhile (· = FF) ≠ [] := by intro hc; rw [hc] at hh; simp at hh
              exact up _ hsuf hne (ih _ (by have := hsuf.length_le; omega) h)
            · exact go _ _ hsuf h (by simp)
          · split at h
            · refine go _ _ ?_ h (by simp)
              have h1 : r.dropWhile (· = ESC) <:+ r := List.dropWhile_suffix _
              have hd : ∀ (p : Char → Bool) (l : List Char), dropOne p l <:+ l := by
                intro p l; unfold dropOne
                split
                · split
                  · exact ⟨[_], rfl⟩
                  · exact List.suffix_refl _
                · exact List.suffix_refl _
              refine List.IsSuffix.trans ?_ h1
              generalize r.dropWhile (· = ESC) = l
              unfold afterEsc
              split
              · rename_i l'
                exact (hd _ l').trans ⟨['[', '['], rfl⟩
              · rename_i l' _
                exact ((hd _ _).trans (List.dropWhile_suffix _)).trans ⟨['['], rfl⟩
              · rename_i l'
                exact ((hd _ _).trans (List.dropWhile_suffix _)).trans ⟨[']'], rfl⟩
              · exact hd _ _
            · refine go _ r (List.suffix_refl _) h ?_
              intro _
              simp [single]

/-- The translated text of a string, before a final newline is added. -/
def body (U : Ucd) (s : List Char) : List Char :=
  guardEnd (guardStart U ((tokens finCan (single false false) s).flatMap Tok.out))

theorem guardEnd_last (s : List Char) : ∀ c ∈ (guardEnd s).getLast?, isEnd c = true := by
  intro c hc
  unfold guardEnd at hc
  split at hc
  · rename_i d hd
    split at hc
    · rw [hd] at hc; simp at hc; rename_i h; exact hc ▸ h
    · simp at hc; rw [← hc]; exact end_cgj
  · rename_i hd; rw [hd] at hc; simp at hc

/-- A string not ending with a newline gets one appended. -/
theorem translate_open {s : List Char} (hs : s ≠ []) (h1 : s.getLast? ≠ some '\n') (h2 : s.getLast? ≠ some '\r') :
    translate U false false s = body U s ++ ['\n'] := by
  unfold translate body
  simp only
  rw [if_neg]
  rintro (h | h)
  · exact tokens_ne_nil _ s (Nat.le_refl _) hs h
  · rcases tokens_nl_last _ s (Nat.le_refl _) h with h | h
    · exact h1 h
    · exact h2 h

theorem last_flatMap_end (hU : TextLaws U) (segs : List (List Char)) (h : ∀ c ∈ segs.flatten.getLast?, isEnd c = true) :
    ∀ c ∈ (segs.flatMap (normChain U)).getLast?, isEnd c = true := by
  suffices H : ∀ n (segs : List (List Char)), segs.length = n → (∀ c ∈ segs.flatten.getLast?, isEnd c = true) →
    ∀ c ∈ (segs.flatMap (normChain U)).getLast?, isEnd c = true from H _ segs rfl h
  intro n
  induction n with
  | zero =>
    intro segs hl h c hc
    have : segs = [] := List.length_eq_zero_iff.1 hl
    subst this; simp at hc
  | succ n ih =>
    intro segs hl h c hc
    rcases List.eq_nil_or_concat segs with rfl | ⟨segs, x, rfl⟩
    · simp at hl
    · rw [List.concat_eq_append] at *
      simp only [List.flatMap_append, List.flatMap_cons, List.flatMap_nil, List.append_nil, List.flatten_append, List.flatten_cons,
        List.flatten_nil, List.length_append, List.length_cons, List.length_nil] at *
      by_cases hx : x = []
      · subst hx
        rw [normChain_nil, List.append_nil] at hc
        exact ih segs (by omega) (by simpa using h) c hc
      · have hne := normChain_ne_nil hU hx
        rw [List.getLast?_append] at hc h
        refine last_normChain hU (s := x) ?_ c ?_
        · intro d hd
          apply h
          cases hq : x.getLast? with
          | none => rw [List.getLast?_eq_none_iff] at hq; exact absurd hq hx
          | some y => rw [hq] at hd; exact hd
        · cases hq : (normChain U x).getLast? with
          | none => rw [List.getLast?_eq_none_iff] at hq; exact absurd hq hne
          | some y => rw [hq] at hc; exact hc

/-- Segments of a text ending with a newline, without the newline. -/
theorem segs_pop (hU : TextLaws U) {segs : List (List Char)} {y : List Char} (hs : ∀ s ∈ segs, IsSeg s) (h : segs.flatten = y ++ ['\n']) :
    ∃ segs' : List (List Char), segs'.flatten = y ∧ segs.flatMap (normChain U) = segs'.flatMap (normChain U) ++ ['\n'] := by
  rcases List.eq_nil_or_concat segs with rfl | ⟨segs, x, rfl⟩
  · simp at h
  · rw [List.concat_eq_append] at *
    obtain ⟨x, b, rfl, hb⟩ := hs x (by simp)
    simp only [List.flatten_append, List.flatten_cons, List.flatten_nil, List.append_nil] at h
    rw [← List.append_assoc] at h
    obtain ⟨h1, h2⟩ := List.append_inj' h rfl
    simp only [List.cons.injEq, and_true] at h2
    subst h2
    refine ⟨segs ++ [x], by simp [h1], ?_⟩
    simp only [List.flatMap_append, List.flatMap_cons, List.flatMap_nil, List.append_nil]
    rw [normChain_split hU (inert_lf hU) (nl_assigned hU) (by decide) x []]
    simp [normChain_nil]

/-! ## `from_text_lossy` -/

theorem isBasicText_wj (hU : TextLaws U) (hw : isStart U WJ = true) {t : List Char} (h : isBasicText U t = true) : isBasicText U (WJ :: t) = true := by
  obtain ⟨-, h2, h3⟩ := text_iff.1 h
  obtain ⟨h4, h5⟩ := substr_iff.1 h3
  refine text_iff.2 ⟨by simpa using hw, ?_, substr_iff.2 ⟨?_, ?_⟩⟩
  · intro c hc
    rw [List.getLast?_cons] at hc
    cases hq : t.getLast? with
    | none => rw [hq] at hc; simp at hc; rw [← hc]; decide +kernel
    | some x => rw [hq] at hc; simp at hc; exact h2 c (by rw [hq, hc]; simp)
  · intro c hc
    simp only [List.mem_cons] at hc
    rcases hc with rfl | hc
    · decide +kernel
    · exact h4 c hc
  · exact (nss_inert (x := []) hU.law hU.wj_inert).2 ⟨nss_nil, h5⟩

/-- The string is empty or ends with a newline. -/
def Closed (r : List Char) : Prop := r = [] ∨ r.getLast? = some '\n' ∨ r.getLast? = some '\r'

instance (r : List Char) : Decidable (Closed r) := inferInstanceAs (Decidable (_ ∨ _))

/-- The translated text of a string conversion: a string that ends without a newline stays so. -/
def lossyText (U : Ucd) (r : List Char) : List Char :=
  if Closed r then translate U false false r else body U r

/-- What the string conversion makes of a byte-order mark. -/
def bomPrefix (v : List Char) : List Char := if v.head? = some BOM then [WJ] else []

/-- The string conversion never panics, and its result is made of normalized segments. -/
theorem lossy_run (hU : TextLaws U) {chunks : List (List Char)} {last : List Char} (hb : SliceReads chunks last) {lens : List Nat} {text : List Char}
    (h : readToEnd U lens (.new false false) (script chunks last) = some text) :
    ∃ segs : List (List Char), segs.flatten = lossyText U (dropBom (chunks.flatten ++ last)) ∧
      fromTextLossy U chunks last lens = some (bomPrefix (chunks.flatten ++ last) ++ segs.flatMap (normChain U)) ∧
      text = segs.flatMap (normChain U) ++ (if Closed (dropBom (chunks.flatten ++ last)) then [] else ['\n']) := by
  obtain ⟨lens', r, n, -, h1, h2, h3⟩ := readToEnd_run _ _ _ _ h
  obtain ⟨-, -, -, segs, h4, h5, h6⟩ := run_script hU hb.bomSafe h1 h2
  rw [h3] at h5
  unfold fromTextLossy
  rw [show chunks.map (fun c => Event.data c .active) ++ [.data last .end_] = script chunks last from rfl, h]
  simp only
  generalize chunks.flatten ++ last = v at h4 ⊢
  have hf : lossyFinish v text = if dropBom v ≠ [] ∧ (dropBom v).getLast? ≠ some '\n' ∧ (dropBom v).getLast? ≠ some '\r' then
      if (bomPrefix v ++ text).getLast? = some '\n' then some (bomPrefix v ++ text).dropLast else none else some (bomPrefix v ++ text) := by
    cases v with
    | nil => rfl
    | cons c r =>
      by_cases hc : c = BOM
      · subst hc
        have hd : dropBom (BOM :: r) = r := by simp [dropBom, dropOne]
        rw [hd]
        have hp : bomPrefix (BOM :: r) = [WJ] := by simp [bomPrefix]
        rw [hp]
        unfold lossyFinish
        simp only [if_true, List.cons_append, List.nil_append]
      · have hd : dropBom (c :: r) = c :: r := by simp [dropBom, dropOne, hc]
        rw [hd]
        have hp : bomPrefix (c :: r) = [] := by simp [bomPrefix, hc]
        rw [hp]
        unfold lossyFinish
        simp only [if_neg hc, List.nil_append]
  rw [hf]
  generalize dropBom v = r at h4 ⊢
  by_cases hc : Closed r
  · rw [if_neg (by rintro ⟨a1, a2, a3⟩; rcases hc with h | h | h <;> contradiction)]
    exact ⟨segs, by rw [lossyText, if_pos hc]; exact h4.symm, by rw [h5], by rw [if_pos hc, h5]; simp⟩
  · have hc' := hc
    simp only [Closed, not_or] at hc'
    rw [if_pos hc']
    rw [translate_open hc'.1 hc'.2.1 hc'.2.2] at h4
    obtain ⟨segs', e1, e2⟩ := segs_pop hU h6 h4.symm
    rw [e2] at h5
    have hl : (bomPrefix v ++ text).getLast? = some '\n' := by rw [h5, ← List.append_assoc]; simp
    rw [if_pos hl]
    refine ⟨segs', by rw [lossyText, if_neg hc]; exact e1, ?_, by rw [if_neg hc]; exact h5⟩
    rw [h5, ← List.append_assoc, List.dropLast_concat]

theorem substr_prefix (hU : TextLaws U) {a b : List Char} (h : isBasicTextSubstr U (a ++ b) = true) : isBasicTextSubstr U a = true := by
  obtain ⟨h1, h2⟩ := substr_iff.1 h
  exact substr_iff.2 ⟨fun c hc => h1 c (by simp [hc]), nss_prefix hU.law h2⟩

theorem substr_suffix (hU : TextLaws U) {a b : List Char} (h : isBasicTextSubstr U (a ++ b) = true) : isBasicTextSubstr U b = true := by
  obtain ⟨h1, h2⟩ := substr_iff.1 h
  exact substr_iff.2 ⟨fun c hc => h1 c (by simp [hc]), nss_suffix hU.law h2⟩

theorem lossyText_last (r : List Char) : ∀ c ∈ (lossyText U r).getLast?, isEnd c = true := by
  unfold lossyText
  split
  · unfold translate
    simp only
    split
    · exact guardEnd_last _
    · intro c hc; simp at hc; rw [← hc]; exact end_nl
  · exact guardEnd_last _

/-- The result of the string conversion is Basic Text. -/
theorem lossy_valid (hU : TextLaws U) (hw : isStart U WJ = true) {chunks : List (List Char)} {last : List Char} (hb : SliceReads chunks last) {lens : List Nat} {text : List Char}
    (h : readToEnd U lens (.new false false) (script chunks last) = some text) :
    ∃ t, fromTextLossy U chunks last lens = some t ∧ isBasicText U t = true := by
  obtain ⟨segs, h1, h2, h3⟩ := lossy_run hU hb h
  refine ⟨_, h2, ?_⟩
  obtain ⟨lens', r, n, -, g1, g2, g3⟩ := readToEnd_run _ _ _ _ h
  obtain ⟨v1, v2⟩ := run_valid hU false false (script chunks last) lens'
  rw [← run_delivered hU false false (ending_script chunks last).no_err, g3] at v1 v2
  rw [h3] at v1 v2
  have ht : isBasicText U (segs.flatMap (normChain U)) = true := by
    refine text_iff.2 ⟨?_, last_flatMap_end hU segs (by rw [h1]; exact lossyText_last _), substr_prefix hU v1⟩
    intro c hc
    apply v2 c
    rw [List.head?_append]
    cases hq : (segs.flatMap (normChain U)).head? with
    | none => rw [hq] at hc; simp at hc
    | some x => rw [hq] at hc; exact hc
  unfold bomPrefix
  split
  · exact isBasicText_wj hU hw ht
  · exact ht

theorem translate_lossyText (r : List Char) : translate U false false r = lossyText U r ++ (if Closed r then [] else ['\n']) := by
  unfold lossyText
  by_cases h : Closed r
  · simp [h]
  · rw [if_neg h, if_neg h]
    simp only [Closed, not_or] at h
    exact translate_open h.1 h.2.1 h.2.2

theorem normChain_nl (hU : TextLaws U) (x : List Char) : normChain U (x ++ ['\n']) = normChain U x ++ ['\n'] := by
  rw [normChain_split hU (inert_lf hU) (nl_assigned hU) (by decide) x []]; simp [normChain_nil]

theorem normChain_lossyText (hU : TextLaws U) (r : List Char) :
    normChain U (translate U false false r) = normChain U (lossyText U r) ++ (if Closed r then [] else ['\n']) := by
  rw [translate_lossyText]
  split
  · simp
  · exact normChain_nl hU _

/-- The string conversion of a content for which the cutting does not matter. -/
theorem lossy_eq (hU : TextLaws U) {chunks : List (List Char)} {last : List Char} (hb : SliceReads chunks last) {lens : List Nat} {text : List Char}
    (hn : Clear U false false (chunks.flatten ++ last))
    (h : readToEnd U lens (.new false false) (script chunks last) = some text) :
    fromTextLossy U chunks last lens = some (bomPrefix (chunks.flatten ++ last) ++ normalize U (lossyText U (dropBom (chunks.flatten ++ last)))) := by
  obtain ⟨segs, -, h2, h3⟩ := lossy_run hU hb h
  obtain ⟨lens', r, n, -, g1, g2, g3⟩ := readToEnd_run _ _ _ _ h
  have h4 := output_stream hU hb.bomSafe hn ⟨r, n, g1, g2⟩
  rw [output, g3, stream] at h4
  have hc : NoCgjUn U (translate U false false (dropBom (chunks.flatten ++ last))) := hn
  rw [← normalize_spec hU hc, normChain_lossyText hU, h3] at h4
  rw [h2, List.append_cancel_right h4, normalize_spec hU]
  rw [translate_lossyText] at hc
  intro a c b hh
  exact hc a c (b ++ _) (by rw [hh]; simp; rfl)

/-- The string conversion of a content that comes in one piece. -/
theorem lossy_single (hU : TextLaws U) {s : List Char} {lens : List Nat} {text : List Char}
    (h : readToEnd U lens (.new false false) (script [] s) = some text) :
    fromTextLossy U [] s lens = some (bomPrefix s ++ normChain U (lossyText U (dropBom s))) := by
  have hb : SliceReads [] s := by
    cases s
    · exact Or.inr rfl
    · exact Or.inl (by simp)
  obtain ⟨segs, -, h2, h3⟩ := lossy_run hU hb h
  obtain ⟨lens', r, n, -, g1, g2, g3⟩ := readToEnd_run _ _ _ _ h
  have h4 := output_single hU ⟨r, n, g1, g2⟩
  rw [output, g3, normChain_lossyText hU, h3] at h4
  simp only [List.flatten_nil, List.nil_append] at h4 h2
  rw [h2, List.append_cancel_right h4]

/-- Valid text is its own translation. -/
theorem lossyText_valid {s : List Char} (h : isBasicText U s = true) : dropBom s = s ∧ bomPrefix s = [] ∧ lossyText U s = s := by
  obtain ⟨-, -, h3⟩ := text_iff.1 h
  obtain ⟨h4, -⟩ := substr_iff.1 h3
  refine ⟨ok_dropBom h4, ?_, ?_⟩
  · unfold bomPrefix
    split
    · rename_i hh
      exact absurd rfl (ok_not_special (h4 BOM (List.mem_of_head? hh))).2.2.2.2.2.2
    · rfl
  · have h5 := translate_ok (nel := false) (lsps := false) h
    rw [translate_lossyText] at h5
    have hcr : s.getLast? ≠ some '\r' := fun hh => (ok_not_special (h4 '\r' (List.mem_of_getLast? hh))).1 rfl
    by_cases hc : s = [] ∨ s.getLast? = some '\n'
    · rw [if_pos hc, if_pos (show Closed s from hc.imp_right Or.inl)] at h5
      simpa using h5
    · rw [if_neg hc, if_neg] at h5
      · exact List.append_cancel_right h5
      · rintro (h | h | h)
        · exact hc (Or.inl h)
        · exact hc (Or.inr h)
        · exact hcr h

theorem pre_flatMap (hU : TextLaws U) (segs : List (List Char)) : ∀ hv : Bool, Pre U hv (segs.flatMap (normChain U)) := by
  have mono : ∀ {s : List Char}, Pre U false s → ∀ hv, Pre U hv s := by
    intro s h hv
    cases hv
    · exact h
    · exact h.weaken
  induction segs with
  | nil => intro hv; trivial
  | cons s segs ih =>
    intro hv
    rw [List.flatMap_cons, pre_append]
    exact ⟨mono (pre_normChain hU s) hv, ih _⟩

theorem pre_bom (hw : isAssigned U WJ = true) {v s : List Char} (h : ∀ hv, Pre U hv s) : Pre U false (bomPrefix v ++ s) := by
  rw [pre_append]
  refine ⟨?_, h _⟩
  apply pre_of_all
  intro c hc
  unfold bomPrefix at hc
  split at hc
  · simp at hc; rw [hc]; exact hw
  · simp at hc

/-- Converting a result of the conversion again, in one piece, changes nothing. -/
theorem lossy_idem_single (hU : TextLaws U) (hw : isStart U WJ = true) (ha : isAssigned U WJ = true) {chunks : List (List Char)} {last : List Char}
    (hb : SliceReads chunks last) {lens lens2 : List Nat} {text text2 t : List Char}
    (h : readToEnd U lens (.new false false) (script chunks last) = some text) (ht : fromTextLossy U chunks last lens = some t)
    (h2 : readToEnd U lens2 (.new false false) (script [] t) = some text2) : fromTextLossy U [] t lens2 = some t := by
  obtain ⟨t', e1, e2⟩ := lossy_valid hU hw hb h
  rw [ht] at e1
  injection e1 with e1
  subst e1
  obtain ⟨segs, -, h3, -⟩ := lossy_run hU hb h
  rw [ht] at h3
  injection h3 with h3
  have hp : Pre U false t := by
    rw [h3]
    exact pre_bom ha (pre_flatMap hU segs)
  rw [lossy_single hU h2]
  obtain ⟨g1, g2, g3⟩ := lossyText_valid e2
  rw [g1, g2, g3, (normChain_eq_iff hU).2 ⟨(substr_iff.1 (text_iff.1 e2).2.2).2, hp⟩]
  rfl

end Verif
