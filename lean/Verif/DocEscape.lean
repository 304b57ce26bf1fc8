import Verif.DocSpec

/-!
# The document's string conversion of text with escape sequences
-/

namespace Verif
open Ucd Spec Tables

theorem dropOne_fin {s : List Char} (h : CAN ∉ s) : dropOne finCan s = dropOne final s := by
  cases s with
  | nil => rfl
  | cons c r =>
    have : finCan c = final c := by
      have : c ≠ CAN := fun e => h (by simp [e])
      simp [finCan, this]
    simp only [dropOne, this]

theorem afterEsc_fin {s : List Char} (h : CAN ∉ s) : afterEsc finCan s = afterEsc final s := by
  unfold afterEsc
  split
  · rfl
  · exact dropOne_fin fun hm => h (List.mem_cons_of_mem _ ((List.dropWhile_sublist _).subset hm))
  · rfl
  · exact dropOne_fin h

theorem dropOne_suffix (p : Char → Bool) (s : List Char) : dropOne p s <:+ s := by
  unfold dropOne
  split
  · split
    · exact ⟨[_], rfl⟩
    · exact List.suffix_refl _
  · exact List.suffix_refl _

theorem afterEsc_suffix (fin : Char → Bool) (s : List Char) : afterEsc fin s <:+ s := by
  unfold afterEsc
  split
  · rename_i r
    exact (dropOne_suffix _ r).trans ⟨['[', '['], rfl⟩
  · rename_i r _
    exact ((dropOne_suffix _ _).trans (List.dropWhile_suffix _)).trans ⟨['['], rfl⟩
  · rename_i r
    exact ((dropOne_suffix _ _).trans (List.dropWhile_suffix _)).trans ⟨[']'], rfl⟩
  · exact dropOne_suffix _ _

/-- As `tokens_like`, with escape sequences but without CAN. -/
theorem tokens_like_esc : ∀ (n : Nat) (s : List Char), s.length ≤ n → CAN ∉ s → 'ﬃ' ∉ s → Like (codeRows s) (Doc.rows s) := by
  intro n
  induction n with
  | zero =>
    intro s hs _ _
    have : s = [] := List.length_eq_zero_iff.1 (by omega)
    subst this
    unfold codeRows Doc.rows
    rw [tokens, tokens]; exact .nil
  | succ n ih =>
    intro s hs he hf
    cases s with
    | nil => unfold codeRows Doc.rows; rw [tokens, tokens]; exact .nil
    | cons c r =>
      simp only [List.length_cons] at hs
      have sub : ∀ r' : List Char, r' <:+ r → Like ((tokens finCan (single false false) r').flatMap Tok.out) (Doc.rows r') := by
        intro r' hr
        exact ih r' (by have := hr.length_le; omega) (fun h => he (by simp [hr.subset h])) (fun h => hf (by simp [hr.subset h]))
      have nlk : Like ['\n'] ['\n'] := Like.refl (by decide +kernel)
      have spk : Like [' '] [' '] := Like.refl (by decide +kernel)
      unfold codeRows
      unfold Doc.rows at sub ⊢
      rw [tokens, tokens]
      split
      · simp only [List.flatMap_cons]; exact nlk.append (sub r (List.suffix_refl _))
      split
      · simp only [List.flatMap_cons]
        exact nlk.append (sub _ (dropOne_suffix _ _))
      split
      · simp only
        have hsuf := List.dropWhile_suffix (l := r) (fun x => decide (x = FF))
        split
        · exact sub _ hsuf
        · simp only [List.flatMap_cons]; exact spk.append (sub _ hsuf)
      split
      · have hsuf := List.dropWhile_suffix (l := r) (fun x => decide (x = ESC))
        have e : afterEsc finCan (r.dropWhile (fun x => decide (x = ESC))) = afterEsc final (r.dropWhile (fun x => decide (x = ESC))) :=
          afterEsc_fin fun hm => he (by simp [hsuf.subset hm])
        simp only [List.flatMap_cons, e]
        exact Like.append .nil (sub _ ((afterEsc_suffix _ _).trans hsuf))
      · rename_i h1 h2 h3 h4
        simp only [List.flatMap_cons]
        refine Like.append ?_ (sub r (List.suffix_refl _))
        have : (single false false c).out = replace c := by simp [single, Tok.out]
        rw [this]
        exact like_row h2 h3 h4 (fun e => hf (by simp [e]))

/-! ## First and last scalars of texts that are alike -/

theorem cjk_first : cjkTree.all (fun n v => startN n && endN n && (match v with | d :: _ => startN d && validN d | [] => false) &&
    (match v.getLast? with | some d => endN d && validN d | none => false)) = true := by decide +kernel

theorem cjk_ends {c : Char} (h : inRanges docCjk c.toNat = true) : isStart ucd15 c = true ∧ isEnd c = true ∧
    (∀ d ∈ (ucd15.cjk c).head?, isStart ucd15 d = true) ∧ ∀ d ∈ (ucd15.cjk c).getLast?, isEnd d = true := by
  obtain ⟨-, -, -, h4⟩ := cjk_row h
  rcases cjk15_cases c with ⟨h5, -⟩ | ⟨v, h5, h6, -⟩
  · exact absurd h5 h4
  · have := Tree.find_all cjk_first h5
    simp only [Bool.and_eq_true] at this
    obtain ⟨⟨⟨k1, k2⟩, k3⟩, k4⟩ := this
    refine ⟨by rw [isStart15]; exact k1, k2, ?_, ?_⟩
    · rw [h6]
      cases v with
      | nil => simp
      | cons d v =>
        simp only [Bool.and_eq_true] at k3
        simp only [List.map_cons, List.head?_cons, Option.mem_some_iff]
        rintro _ rfl
        rw [isStart15, toNat_ofNat k3.2]; exact k3.1
    · rw [h6, List.getLast?_map]
      intro d hd
      cases hl : v.getLast? with
      | none => rw [hl] at hd; simp at hd
      | some n =>
        rw [hl] at hd k4
        simp only [Bool.and_eq_true] at k4
        simp only [Option.map_some, Option.mem_some_iff] at hd
        subst hd
        show endN (Char.ofNat n).toNat = true
        rw [toNat_ofNat k4.2]; exact k4.1

theorem Block.first {x y : List Char} (h : Block x y) : ∃ c d x' y', x = c :: x' ∧ y = d :: y' ∧ isStart ucd15 c = isStart ucd15 d := by
  cases h with
  | same c h => exact ⟨c, c, [], [], rfl, rfl, rfl⟩
  | cjk c h =>
    obtain ⟨h1, -, h3, -⟩ := cjk_ends h
    cases hy : ucd15.cjk c with
    | nil => exact absurd hy (textLaws15.cjk_ne c)
    | cons d y => exact ⟨c, d, [], y, rfl, rfl, by rw [h1, h3 d (by rw [hy]; rfl)]⟩
  | ohm => exact ⟨_, _, _, _, rfl, rfl, by decide +kernel⟩
  | kelvin => exact ⟨_, _, _, _, rfl, rfl, by decide +kernel⟩
  | angstrom => exact ⟨_, _, _, _, rfl, rfl, by decide +kernel⟩
  | vocalicR => exact ⟨_, _, _, _, rfl, rfl, rfl⟩
  | vocalicL => exact ⟨_, _, _, _, rfl, rfl, rfl⟩

theorem Block.last {x y : List Char} (h : Block x y) : ∃ c d, x.getLast? = some c ∧ y.getLast? = some d ∧ isEnd c = isEnd d := by
  cases h with
  | same c h => exact ⟨c, c, rfl, rfl, rfl⟩
  | cjk c h =>
    obtain ⟨-, h1, -, h3⟩ := cjk_ends h
    cases hy : (ucd15.cjk c).getLast? with
    | none => exact absurd (List.getLast?_eq_none_iff.1 hy) (textLaws15.cjk_ne c)
    | some d => exact ⟨c, d, rfl, rfl, by rw [h1, h3 d hy]⟩
  | ohm => exact ⟨_, _, rfl, rfl, by decide +kernel⟩
  | kelvin => exact ⟨_, _, rfl, rfl, by decide +kernel⟩
  | angstrom => exact ⟨_, _, rfl, rfl, by decide +kernel⟩
  | vocalicR => exact ⟨_, _, rfl, rfl, by decide +kernel⟩
  | vocalicL => exact ⟨_, _, rfl, rfl, by decide +kernel⟩

theorem Like.first {a b : List Char} (h : Like a b) (hs : ∀ d ∈ b.head?, isStart ucd15 d = true) : ∀ c ∈ a.head?, isStart ucd15 c = true := by
  cases h with
  | nil => simp
  | cons hb h' =>
    obtain ⟨c, d, x, y, rfl, rfl, e⟩ := hb.first
    intro c' hc
    simp only [List.cons_append, List.head?_cons, Option.mem_some_iff] at hc
    subst hc
    rw [e]; exact hs d rfl

theorem Like.last {a b : List Char} (h : Like a b) : (a = [] ∧ b = []) ∨ ∃ c d, a.getLast? = some c ∧ b.getLast? = some d ∧ isEnd c = isEnd d := by
  induction h with
  | nil => exact Or.inl ⟨rfl, rfl⟩
  | @cons x y a b hb h' ih =>
    right
    rcases ih with ⟨rfl, rfl⟩ | ⟨c, d, h1, h2, h3⟩
    · simpa using hb.last
    · refine ⟨c, d, ?_, ?_, h3⟩
      · rw [getLast?_append_ne (by rintro rfl; simp at h1)]; exact h1
      · rw [getLast?_append_ne (by rintro rfl; simp at h2)]; exact h2

theorem end_of_not_nonEnder {c : Char} (h : ¬ NonEnder c) : isEnd c = true := by
  by_cases h1 : c = '࢐'
  · subst h1; decide +kernel
  by_cases h2 : c = '࢑'
  · subst h2; decide +kernel
  cases hd : isEnd c with
  | true => rfl
  | false => exact absurd ((c56_end_partial c h1 h2).1 hd) h

/-- The text before isolation, for strings with escape sequences. -/
theorem like_string_esc {s : List Char} (he : CAN ∉ s) (hf : 'ﬃ' ∉ s) (hi : ∀ c ∈ s.head?, ¬ inherent c)
    (hst : s.head? = some ESC → ∀ c ∈ (Doc.rows s).head?, ¬ NonStarter c)
    (h1 : ∀ c ∈ s.getLast?, ¬ NonEnder c) (h2 : ∀ c ∈ (Doc.rows s).getLast?, ¬ NonEnder c) :
    Like (Spec.guardEnd (Spec.guardStart ucd15 (codeRows s))) (Doc.text false false s) := by
  unfold Doc.text
  rw [modes_off]
  have hl := tokens_like_esc _ s (Nat.le_refl _) he hf
  cases s with
  | nil =>
    have h1 : codeRows [] = [] := by unfold codeRows; rw [tokens]; rfl
    have h2 : Doc.rows [] = [] := by unfold Doc.rows; rw [tokens]; rfl
    show Like (Spec.guardEnd (Spec.guardStart ucd15 (codeRows []))) (Doc.rows [])
    rw [h1, h2]; exact .nil
  | cons c r =>
    have hcg : Like [CGJ] [CGJ] := Like.refl (by decide +kernel)
    -- the end: nothing is added
    have hce : ∀ x, Spec.guardEnd (x ++ codeRows (c :: r)) = x ++ codeRows (c :: r) ∨ codeRows (c :: r) = [] := by
      intro x
      rcases hl.last with ⟨h, -⟩ | ⟨a, b, k1, k2, k3⟩
      · exact Or.inr h
      · left
        unfold Spec.guardEnd
        rw [getLast?_append_ne (by intro h; rw [h] at k1; simp at k1), k1]
        simp only [k3, end_of_not_nonEnder (h2 b k2), if_true]
    have hde : ∀ x, Doc.guardEnd (x ++ c :: r) = x ++ c :: r := by
      intro x
      rcases List.eq_nil_or_concat (c :: r) with h | ⟨q, d, h⟩
      · simp at h
      · rw [List.concat_eq_append] at h
        have hd : (c :: r).getLast? = some d := by rw [h]; simp
        rw [doc_guardEnd (d := d) (by rw [getLast?_append_ne (by simp)]; exact hd), if_neg (h1 d hd), List.append_nil]
    rw [doc_guardStart, hde]
    by_cases hc : c = ESC
    · subst hc
      rw [if_neg (show ¬ NonStarter ESC by decide +kernel), List.nil_append]
      have hfst := hl.first (fun d hd => by
        have := hst rfl d hd
        rw [nonStarter_iff] at this
        simpa using this)
      have : Spec.guardStart ucd15 (codeRows (ESC :: r)) = codeRows (ESC :: r) := by
        unfold Spec.guardStart
        split
        · rename_i x y hxy
          rw [if_pos (hfst x (by rw [hxy]; rfl))]
        · rename_i h; exact h.symm
      rw [this]
      rcases hce [] with h | h
      · rw [List.nil_append] at h; rw [h]; exact hl
      · rw [h]; rw [h] at hl; exact hl
    · rw [code_guardStart hc (hi c rfl)]
      obtain ⟨h', t, e1, -⟩ := codeRows_head (r := r) hc (hi c rfl)
      rcases hce (if NonStarter c then [CGJ] else []) with h | h
      · rw [h]
        by_cases hn : NonStarter c
        · rw [if_pos hn, List.singleton_append, List.singleton_append, rows_cgj]
          exact hcg.append hl
        · rw [if_neg hn]; exact hl
      · rw [e1] at h; simp at h

/-- The code's string conversion is the document's. -/
theorem string_doc_esc {s : List Char} (hb : s.head? ≠ some BOM) (he : CAN ∉ s) (hf : 'ﬃ' ∉ s) (hi : ∀ c ∈ s.head?, ¬ inherent c)
    (hst : s.head? = some ESC → ∀ c ∈ (Doc.rows s).head?, ¬ NonStarter c)
    (h1 : ∀ c ∈ s.getLast?, ¬ NonEnder c) (h2 : ∀ c ∈ (Doc.rows s).getLast?, ¬ NonEnder c) : Spec.string ucd15 s = Doc.string false false s := by
  have e : Spec.string ucd15 s = string0 ucd15 s := by
    unfold Spec.string
    split
    · rename_i c r
      rw [if_neg]
      rintro rfl
      exact hb rfl
    · rfl
  rw [e]
  unfold string0 Doc.string
  exact like_normalize (like_string_esc he hf hi hst h1 h2)

/-! ## Escape sequences that swallow the last newline -/

namespace Spec

/-- The last newline of the text is part of an escape sequence, and so is not one of the newlines of the translation. -/
def Swallowed (v : List Char) : Prop :=
  (v.getLast? = some '\n' ∨ v.getLast? = some '\r') ∧ (tokens finCan (single false false) v).getLast? ≠ some .nl

instance (v : List Char) : Decidable (Swallowed v) := inferInstanceAs (Decidable (_ ∧ _))

end Spec

theorem swallowed_esc {v : List Char} (h : Swallowed v) : ESC ∈ v := by
  apply Classical.byContradiction
  intro he
  exact h.2 (tokens_ends_nl _ v (Nat.le_refl _) he h.1)

/-- What the conversion works on: the specification's text, and a newline if the last one was swallowed. -/
theorem lossyText_swallow {U : Ucd} (r : List Char) : lossyText U r = body U r ++ (if Swallowed r then ['\n'] else []) := by
  unfold lossyText
  split
  · rename_i hc
    unfold translate body
    simp only
    rcases hc with rfl | hc
    · rw [if_pos (Or.inl (by simp [tokens])), if_neg (fun h => absurd h.1 (by simp)), List.append_nil]
    · have hne : tokens finCan (single false false) r ≠ [] := tokens_ne_nil _ r (Nat.le_refl _) (by rintro rfl; simp at hc)
      by_cases hl : (tokens finCan (single false false) r).getLast? = some .nl
      · rw [if_pos (Or.inr hl), if_neg (fun h => h.2 hl), List.append_nil]
      · rw [if_neg (by simp [hne, hl]), if_pos ⟨hc, hl⟩]
  · rename_i hc
    rw [if_neg (fun h => hc (Or.inr h.1)), List.append_nil]

/-- The string conversion of every string without U+34F before an unassigned scalar. -/
theorem lossy_swallow {U : Ucd} (hU : TextLaws U) {chunks : List (List Char)} {last : List Char} (hb : SliceReads chunks last) {lens : List Nat} {text : List Char}
    (hn : Clear U false false (chunks.flatten ++ last))
    (h : readToEnd U lens (.new false false) (script chunks last) = some text) :
    fromTextLossy U chunks last lens =
      some (Spec.string U (chunks.flatten ++ last) ++ (if Swallowed (dropBom (chunks.flatten ++ last)) then ['\n'] else [])) := by
  rw [lossy_eq hU hb hn h, string_eq, lossyText_swallow]
  split
  · rename_i hs
    have hc : NoCgjUn U (body U (dropBom (chunks.flatten ++ last)) ++ ['\n']) := by
      have hc : NoCgjUn U (translate U false false (dropBom (chunks.flatten ++ last))) := hn
      rwa [translate_lossyText, lossyText_swallow, if_pos hs, if_pos (show Closed _ from Or.inr hs.1), List.append_nil] at hc
    rw [← normalize_spec hU hc, normChain_nl hU, normalize_spec hU, List.append_assoc]
    intro a c b hh
    exact hc a c (b ++ ['\n']) (by rw [hh]; simp)
  · rw [List.append_nil, List.append_nil]

/-! ## The newline added at the end of a stream -/

theorem dropOne_snoc {p : Char → Bool} (x : List Char) : dropOne p (x ++ ['\n']) = dropOne p x ++ ['\n'] ∨ dropOne p (x ++ ['\n']) = [] := by
  cases x with
  | nil => simp only [List.nil_append, dropOne]; split <;> simp
  | cons c r => simp only [List.cons_append, dropOne]; split <;> simp

theorem dropWhile_snoc {p : Char → Bool} (x : List Char) : (x ++ ['\n']).dropWhile p = x.dropWhile p ++ ['\n'] ∨ (x ++ ['\n']).dropWhile p = [] := by
  induction x with
  | nil => simp only [List.nil_append, List.dropWhile]; split <;> simp
  | cons c r ih => simp only [List.cons_append, List.dropWhile_cons]; split <;> simp_all

theorem afterEsc_snoc {fin : Char → Bool} (x : List Char) (hf : fin '\n' = false) :
    afterEsc fin (x ++ ['\n']) = afterEsc fin x ++ ['\n'] ∨ afterEsc fin (x ++ ['\n']) = [] := by
  have comb : ∀ (p q : Char → Bool) (r : List Char), dropOne p ((r ++ ['\n']).dropWhile q) = dropOne p (r.dropWhile q) ++ ['\n'] ∨
      dropOne p ((r ++ ['\n']).dropWhile q) = [] := by
    intro p q r
    rcases dropWhile_snoc (p := q) r with h | h
    · rw [h]; exact dropOne_snoc _
    · rw [h]; exact Or.inr rfl
  have csi : ∀ r : List Char, r.head? ≠ some '[' → afterEsc fin ('[' :: r) = dropOne fin (r.dropWhile param) := by
    intro r hr
    cases r with
    | nil => rfl
    | cons d r =>
      unfold afterEsc
      split
      · rename_i h; simp at h; exact absurd (by rw [h.1]; rfl) hr
      · rename_i h; simp at h; rw [h]
      · rename_i h; simp at h
      · rename_i h _; exact absurd rfl (h _)
  have els : ∀ r : List Char, r.head? ≠ some '[' → r.head? ≠ some ']' → afterEsc fin r = dropOne fin r := by
    intro r h1 h2
    unfold afterEsc
    split
    · exact absurd rfl h1
    · exact absurd rfl h1
    · exact absurd rfl h2
    · rfl
  cases x with
  | nil => left; rw [els _ (by decide) (by decide), els _ (by simp) (by simp)]; simp [dropOne, hf]
  | cons d x =>
    by_cases h1 : d = '['
    · subst h1
      cases x with
      | nil => rw [List.cons_append, csi _ (by decide), csi _ (by simp)]; exact comb _ _ _
      | cons e x =>
        by_cases h2 : e = '['
        · subst h2; exact dropOne_snoc _
        · rw [List.cons_append, csi _ (by simp [h2]), csi _ (by simp [h2])]; exact comb _ _ _
    · by_cases h2 : d = ']'
      · subst h2; exact comb _ _ _
      · rw [els _ (by simp [h1]) (by simp [h2]), els _ (by simp [h1]) (by simp [h2])]; exact dropOne_snoc _

/-- A newline behind text without one at its end is a token of its own, unless an escape sequence takes it. -/
theorem tokens_snoc {fin : Char → Bool} {one : Char → Tok} (hf : fin '\n' = false) : ∀ (n : Nat) (s : List Char), s.length ≤ n →
    s.getLast? ≠ some '\r' → s.getLast? ≠ some FF → (tokens fin one (s ++ ['\n'])).getLast? = some .nl →
    tokens fin one (s ++ ['\n']) = tokens fin one s ++ [.nl] := by
  intro n
  induction n with
  | zero =>
    intro s hs _ _ _
    have : s = [] := List.length_eq_zero_iff.1 (by omega)
    subst this
    rw [List.nil_append, tokens_nl, tokens]; rfl
  | succ n ih =>
    intro s hs hr hff h
    cases s with
    | nil => rw [List.nil_append, tokens_nl, tokens]; rfl
    | cons c r =>
      simp only [List.length_cons] at hs
      have last : ∀ r' : List Char, r' <:+ r → ∀ x, r'.getLast? = some x → (c :: r).getLast? = some x := by
        intro r' hr' x hx
        obtain ⟨w, rfl⟩ := hr'
        rw [← List.cons_append, List.getLast?_append, hx]; rfl
      have down : ∀ r' : List Char, r' <:+ r → (tokens fin one (r' ++ ['\n'])).getLast? = some .nl →
          tokens fin one (r' ++ ['\n']) = tokens fin one r' ++ [.nl] := by
        intro r' hr' hl
        exact ih r' (by have := hr'.length_le; omega) (fun hx => hr (last r' hr' _ hx)) (fun hx => hff (last r' hr' _ hx)) hl
      have tail : ∀ (t : Tok) (y : List Char), y ≠ [] → (t :: tokens fin one y).getLast? = some .nl → (tokens fin one y).getLast? = some .nl := by
        intro t y hy hl
        rw [List.getLast?_cons] at hl
        cases hq : (tokens fin one y).getLast? with
        | none => exact absurd (List.getLast?_eq_none_iff.1 hq) (tokens_ne_nil _ y (Nat.le_refl _) hy)
        | some z => rw [hq] at hl; exact hl
      rw [List.cons_append, tokens] at h ⊢
      rw [tokens]
      split at h
      · rename_i hc
        rw [if_pos hc, if_pos hc, down r (List.suffix_refl _) (tail _ _ (by simp) h)]; rfl
      · rename_i hc1
        rw [if_neg hc1, if_neg hc1]
        split at h
        · rename_i hc2
          rw [if_pos hc2, if_pos hc2]
          have e : dropOne (fun x => decide (x = '\n')) (r ++ ['\n']) = dropOne (fun x => decide (x = '\n')) r ++ ['\n'] := by
            cases r with
            | nil => exact absurd (by rw [hc2]; rfl) hr
            | cons d r => simp only [List.cons_append, dropOne]; split <;> rfl
          rw [e] at h ⊢
          rw [down _ (dropOne_suffix _ _) (tail _ _ (by simp) h)]; rfl
        · rename_i hc2
          rw [if_neg hc2, if_neg hc2]
          split at h
          · rename_i hc3
            rw [if_pos hc3, if_pos hc3]
            have hsuf := List.dropWhile_suffix (l := r) (fun x => decide (x = FF))
            have hne : r.dropWhile (fun x => decide (x = FF)) ≠ [] := by
              intro hq
              obtain ⟨w, e1, e2, -⟩ := dropWhile_spec (fun x => decide (x = FF)) r
              rw [hq, List.append_nil] at e1
              apply hff
              rw [List.getLast?_cons]
              cases hl : r.getLast? with
              | none => rw [hc3]; rfl
              | some z =>
                have := e2 z (e1 ▸ List.mem_of_getLast? hl)
                simp only [decide_eq_true_eq] at this
                rw [this]; rfl
            have e : (r ++ ['\n']).dropWhile (fun x => decide (x = FF)) = r.dropWhile (fun x => decide (x = FF)) ++ ['\n'] := by
              rcases dropWhile_snoc (p := fun x => decide (x = FF)) r with h | h
              · exact h
              · have := congrArg List.length h
                obtain ⟨w, e1, e2, -⟩ := dropWhile_spec (fun x => decide (x = FF)) (r ++ ['\n'])
                rw [h, List.append_nil] at e1
                have := e2 '\n' (by rw [← e1]; simp)
                exact absurd this (by decide)
            have eh : (r.dropWhile (fun x => decide (x = FF)) ++ ['\n']).head? = (r.dropWhile (fun x => decide (x = FF))).head? := by
              cases hq : r.dropWhile (fun x => decide (x = FF)) with
              | nil => exact absurd hq hne
              | cons d q => rfl
            simp only [e, eh] at h ⊢
            split at h
            · rename_i hh
              rw [if_pos hh, if_pos hh]; exact down _ hsuf h
            · rename_i hh
              rw [if_neg hh, if_neg hh, down _ hsuf (tail _ _ (by simp) h)]; rfl
          · rename_i hc3
            rw [if_neg hc3, if_neg hc3]
            split at h
            · rename_i hc4
              rw [if_pos hc4, if_pos hc4]
              have hsuf := List.dropWhile_suffix (l := r) (fun x => decide (x = ESC))
              have e : (r ++ ['\n']).dropWhile (fun x => decide (x = ESC)) = r.dropWhile (fun x => decide (x = ESC)) ++ ['\n'] := by
                rcases dropWhile_snoc (p := fun x => decide (x = ESC)) r with h | h
                · exact h
                · obtain ⟨w, e1, e2, -⟩ := dropWhile_spec (fun x => decide (x = ESC)) (r ++ ['\n'])
                  rw [h, List.append_nil] at e1
                  have := e2 '\n' (by rw [← e1]; simp)
                  exact absurd this (by decide)
              rw [e] at h ⊢
              rcases afterEsc_snoc (r.dropWhile (fun x => decide (x = ESC))) hf with e2 | e2
              · rw [e2] at h ⊢
                rw [down _ ((afterEsc_suffix _ _).trans hsuf) (tail _ _ (by simp) h)]; rfl
              · rw [e2] at h; simp [tokens] at h
            · rename_i hc4
              rw [if_neg hc4, if_neg hc4, down r (List.suffix_refl _) (tail _ _ (by simp) h)]; rfl

/-- Where the newlines are does not depend on what becomes of single scalars. -/
theorem tokens_shape {one one' : Char → Tok} (h : ∀ c, one c ≠ .nl) (h' : ∀ c, one' c ≠ .nl) : ∀ (n : Nat) (s : List Char), s.length ≤ n → CAN ∉ s →
    (tokens finCan one s).map (fun t => decide (t = .nl)) = (tokens final one' s).map (fun t => decide (t = .nl)) := by
  intro n
  induction n with
  | zero =>
    intro s hs _
    have : s = [] := List.length_eq_zero_iff.1 (by omega)
    subst this
    rw [tokens, tokens]
  | succ n ih =>
    intro s hs he
    cases s with
    | nil => rw [tokens, tokens]
    | cons c r =>
      simp only [List.length_cons] at hs
      have sub : ∀ r' : List Char, r' <:+ r → (tokens finCan one r').map (fun t => decide (t = .nl)) = (tokens final one' r').map (fun t => decide (t = .nl)) := by
        intro r' hr
        exact ih r' (by have := hr.length_le; omega) (fun h => he (by simp [hr.subset h]))
      rw [tokens, tokens]
      split
      · simp only [List.map_cons]; rw [sub r (List.suffix_refl _)]
      split
      · simp only [List.map_cons]; rw [sub _ (dropOne_suffix _ _)]
      split
      · simp only
        have hsuf := List.dropWhile_suffix (l := r) (fun x => decide (x = FF))
        split
        · exact sub _ hsuf
        · simp only [List.map_cons]; rw [sub _ hsuf]
      split
      · have hsuf := List.dropWhile_suffix (l := r) (fun x => decide (x = ESC))
        have e : afterEsc finCan (r.dropWhile (fun x => decide (x = ESC))) = afterEsc final (r.dropWhile (fun x => decide (x = ESC))) :=
          afterEsc_fin fun hm => he (by simp [hsuf.subset hm])
        simp only [List.map_cons, e]
        rw [sub _ ((afterEsc_suffix _ _).trans hsuf)]
      · simp only [List.map_cons, h c, h' c]
        rw [sub r (List.suffix_refl _)]

theorem tokens_last_shape {s : List Char} (he : CAN ∉ s) :
    (tokens final Doc.row s).getLast? = some .nl ↔ (tokens finCan (single false false) s).getLast? = some .nl := by
  have key := congrArg List.getLast? (tokens_shape (one := single false false) (one' := Doc.row) (fun c => by simp [single]) (fun c => by simp [Doc.row]) _ s (Nat.le_refl _) he)
  rw [List.getLast?_map, List.getLast?_map] at key
  cases h1 : (tokens finCan (single false false) s).getLast? <;> cases h2 : (tokens final Doc.row s).getLast? <;> rw [h1, h2] at key <;> simp at key ⊢
  exact ⟨fun h => key.2 h, fun h => key.1 h⟩

theorem rows_last_nl {s : List Char} (h : (tokens final Doc.row s).getLast? = some .nl) : (Doc.rows s).getLast? = some '\n' := by
  unfold Doc.rows
  obtain ⟨a, e⟩ := List.getLast?_eq_some_iff.1 h
  rw [e]; simp [Tok.out]

theorem rows_snoc {s : List Char} (hr : s.getLast? ≠ some '\r') (hff : s.getLast? ≠ some FF) (h : (tokens final Doc.row (s ++ ['\n'])).getLast? = some .nl) :
    Doc.rows (s ++ ['\n']) = Doc.rows s ++ ['\n'] := by
  unfold Doc.rows
  rw [tokens_snoc (by decide) _ s (Nat.le_refl _) hr hff h, List.flatMap_append]; rfl

/-- The text of a stream before isolation, with escape sequences. -/
theorem like_stream_esc {s : List Char} (he : CAN ∉ s) (hf : 'ﬃ' ∉ s) (hi : ∀ c ∈ s.head?, ¬ inherent c) (hff : s.getLast? ≠ some FF)
    (hst : s.head? = some ESC → ∀ c ∈ (Doc.rows s).head?, ¬ NonStarter c)
    (h1 : ∀ c ∈ s.getLast?, ¬ NonEnder c) (h2 : ∀ c ∈ (Doc.rows s).getLast?, ¬ NonEnder c) (hw : ¬ Swallowed (Doc.addNewline s)) :
    Like (translate ucd15 false false s) (Doc.text false false (Doc.addNewline s)) := by
  have hl := like_string_esc he hf hi hst h1 h2
  unfold translate
  simp only
  by_cases hs : s = []
  · subst hs; rw [if_pos (Or.inl (by simp [tokens]))]; exact hl
  by_cases hn : s.getLast? = some '\n' ∨ s.getLast? = some '\r'
  · have e : Doc.addNewline s = s := by unfold Doc.addNewline; rw [if_pos (Or.inr hn)]
    rw [e] at hw ⊢
    rw [if_pos (Or.inr (Decidable.byContradiction fun h => hw ⟨hn, h⟩))]
    exact hl
  · have e : Doc.addNewline s = s ++ ['\n'] := by unfold Doc.addNewline; rw [if_neg (by rintro (h | h) <;> simp_all)]
    rw [e] at hw ⊢
    rw [not_or] at hn
    rw [if_neg]
    · have hcan : CAN ∉ s ++ ['\n'] := by simp [he]; decide
      have ht : (tokens final Doc.row (s ++ ['\n'])).getLast? = some .nl := by
        rw [tokens_last_shape hcan]
        exact Decidable.byContradiction fun h => hw ⟨Or.inl (by simp), h⟩
      have hd : Doc.text false false (s ++ ['\n']) = Doc.text false false s ++ ['\n'] := by
        unfold Doc.text
        rw [modes_off, modes_off, doc_guardEnd (d := '\n') ?_, if_neg (by decide +kernel), List.append_nil]
        · rcases List.eq_nil_or_concat s with h | ⟨q, d, hq⟩
          · exact absurd h hs
          · rw [List.concat_eq_append] at hq
            have hd : s.getLast? = some d := by rw [hq]; simp
            cases s with
            | nil => exact absurd rfl hs
            | cons c r =>
              rw [List.cons_append, doc_guardStart, doc_guardStart, doc_guardEnd (d := d) (by rw [getLast?_append_ne (by simp)]; exact hd),
                if_neg (h1 d hd), List.append_nil, ← List.cons_append]
              split
              · rw [List.singleton_append, List.singleton_append, rows_cgj, rows_cgj, rows_snoc hn.2 hff ht]; rfl
              · rw [List.nil_append, List.nil_append, rows_snoc hn.2 hff ht]
        · cases s with
          | nil => exact absurd rfl hs
          | cons c r => rw [List.cons_append, doc_guardStart, ← List.cons_append, ← List.append_assoc, getLast?_append_ne (by simp)]; rfl
      rw [hd]
      exact hl.append (Like.refl (by decide +kernel))
    · rintro (h | h)
      · exact tokens_ne_nil _ s (Nat.le_refl _) hs h
      · have := tokens_nl_last _ s (Nat.le_refl _) h; simp_all

/-- The code's stream conversion is the document's. -/
theorem stream_doc_esc {s : List Char} (he : CAN ∉ s) (hf : 'ﬃ' ∉ s) (hi : ∀ c ∈ (dropBom s).head?, ¬ inherent c) (hff : (dropBom s).getLast? ≠ some FF)
    (hst : (dropBom s).head? = some ESC → ∀ c ∈ (Doc.rows (dropBom s)).head?, ¬ NonStarter c)
    (h1 : ∀ c ∈ (dropBom s).getLast?, ¬ NonEnder c) (h2 : ∀ c ∈ (Doc.rows (dropBom s)).getLast?, ¬ NonEnder c)
    (hw : ¬ Swallowed (Doc.addNewline (dropBom s))) : Spec.stream ucd15 false false s = Doc.stream false false s := by
  unfold Spec.stream Doc.stream Doc.string
  exact like_normalize (like_stream_esc (fun h => he (mem_dropOne h)) (fun h => hf (mem_dropOne h)) hi hff hst h1 h2 hw)

end Verif
