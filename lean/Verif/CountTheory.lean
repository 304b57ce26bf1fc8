import Verif.SpecLaws
import Verif.LossyTheory

/-!
# Counting scalars, and lines

Normalization neither adds nor removes scalars that take part in no normalization; what the stream conversion makes of lines.
-/

namespace Verif
open Ucd Spec
variable {U : Ucd}

theorem count_normChain (hU : TextLaws U) {x : Char} (hx : U.Inert x) (ha : isAssigned U x = true) (hc : x ≠ CGJ) :
    ∀ (n : Nat) (s : List Char), s.length ≤ n → (normChain U s).count x = s.count x := by
  intro n
  induction n with
  | zero =>
    intro s hs
    have : s = [] := List.length_eq_zero_iff.1 (by omega)
    subst this; rw [normChain_nil]
  | succ n ih =>
    intro s hs
    by_cases hm : x ∈ s
    · obtain ⟨a, b, rfl⟩ := List.append_of_mem hm
      simp only [List.length_append, List.length_cons] at hs
      rw [normChain_split hU hx ha hc, List.count_append, List.count_append, List.count_cons_self, List.count_cons_self,
        ih a (by omega), ih b (by omega)]
    · rw [List.count_eq_zero_of_not_mem hm, List.count_eq_zero_of_not_mem fun h => hm (mem_normChain_inert hU hx hc h)]

theorem count_segs (hU : TextLaws U) {x : Char} (hx : U.Inert x) (ha : isAssigned U x = true) (hc : x ≠ CGJ) (segs : List (List Char)) :
    (segs.flatMap (normChain U)).count x = segs.flatten.count x := by
  induction segs with
  | nil => rfl
  | cons s segs ih => rw [List.flatMap_cons, List.flatten_cons, List.count_append, List.count_append, ih, count_normChain hU hx ha hc _ s (Nat.le_refl _)]

theorem count_guardStart {x : Char} (hc : x ≠ CGJ) (s : List Char) : (guardStart U s).count x = s.count x := by
  rcases guardStart_cases U s with h | ⟨c, r, -, -, h⟩
  · rw [h]
  · rw [h, List.count_cons_of_ne (Ne.symm hc)]

theorem count_guardEnd {x : Char} (hc : x ≠ CGJ) (s : List Char) : (guardEnd s).count x = s.count x := by
  unfold guardEnd
  split
  · split
    · rfl
    · rw [List.count_append, List.count_singleton]
      simp [Ne.symm hc]
  · rfl

theorem count_dropWhile {x : Char} {p : Char → Bool} (h : p x = false) (s : List Char) : (s.dropWhile p).count x = s.count x := by
  induction s with
  | nil => rfl
  | cons c s ih =>
    rw [List.dropWhile_cons]
    split
    · rename_i hc
      rw [ih, List.count_cons_of_ne (by rintro rfl; rw [h] at hc; simp at hc)]
    · rfl

theorem countP_dropWhile {q p : Char → Bool} (h : ∀ c, p c = true → q c = false) (s : List Char) : (s.dropWhile p).countP q = s.countP q := by
  induction s with
  | nil => rfl
  | cons c s ih =>
    rw [List.dropWhile_cons]
    split
    · rename_i hc
      rw [ih, List.countP_cons_of_neg (by rw [h c hc]; simp)]
    · rfl

theorem countP_dropOne {q p : Char → Bool} (h : ∀ c, p c = true → q c = false) (s : List Char) : (dropOne p s).countP q = s.countP q := by
  cases s with
  | nil => rfl
  | cons c s =>
    simp only [dropOne]
    split
    · rename_i hc
      rw [List.countP_cons_of_neg (by rw [h c hc]; simp)]
    · rfl

/-- A scalar that is not whitespace appears in the translation as often as single scalars turn into it. -/
theorem count_tokens {fin : Char → Bool} {one : Char → Tok} {x : Char} (h1 : x ≠ '\n') (h2 : x ≠ ' ') {q : Char → Bool}
    (hq1 : q '\n' = false) (hq2 : q '\r' = false) (hq3 : q FF = false)
    (hq : ∀ c, c ≠ '\n' → c ≠ '\r' → c ≠ FF → c ≠ ESC → (Tok.out (one c)).count x = if q c then 1 else 0) :
    ∀ (n : Nat) (s : List Char), s.length ≤ n → ESC ∉ s → ((tokens fin one s).flatMap Tok.out).count x = s.countP q := by
  intro n
  induction n with
  | zero =>
    intro s hs _
    have : s = [] := List.length_eq_zero_iff.1 (by omega)
    subst this; simp [tokens]
  | succ n ih =>
    intro s hs he
    cases s with
    | nil => simp [tokens]
    | cons c r =>
      simp only [List.length_cons] at hs
      have her : ESC ∉ r := fun h => he (by simp [h])
      rw [tokens]
      by_cases c1 : c = '\n'
      · rw [if_pos c1, List.flatMap_cons, List.count_append, ih r (by omega) her, c1, List.countP_cons_of_neg (by simp [hq1])]
        simp [Tok.out, Ne.symm h1]
      rw [if_neg c1]
      by_cases c2 : c = '\r'
      · have hl := dropOne_le (· = '\n') r
        rw [if_pos c2, List.flatMap_cons, List.count_append, ih _ (by omega) (fun h => her (mem_dropOne h)), c2,
          List.countP_cons_of_neg (by simp [hq2]), countP_dropOne]
        · simp [Tok.out, Ne.symm h1]
        · intro c hc; simp at hc; rw [hc]; exact hq1
      rw [if_neg c2]
      by_cases c3 : c = FF
      · have hl := dropWhile_le (· = FF) r
        have hw : (r.dropWhile (· = FF)).countP q = r.countP q := by
          apply countP_dropWhile
          intro c hc; simp at hc; rw [hc]; exact hq3
        rw [if_pos c3, c3, List.countP_cons_of_neg (by simp [hq3])]
        simp only
        split
        · rw [ih _ (by omega) (fun h => her (mem_dropWhile h)), hw]
        · rw [List.flatMap_cons, List.count_append, ih _ (by omega) (fun h => her (mem_dropWhile h)), hw]
          simp [Tok.out, Ne.symm h2]
      rw [if_neg c3]
      have c4 : c ≠ ESC := fun h => he (by simp [h])
      rw [if_neg c4, List.flatMap_cons, List.count_append, ih r (by omega) her, hq c c1 c2 c3 c4]
      rw [List.countP_cons]
      omega

theorem nel_ne_nl : NEL ≠ '\n' := by decide

/-- Newlines of the translation. -/
theorem count_tokens_nl {fin : Char → Bool} {nel lsps : Bool} (hr : ∀ c, c ≠ '\n' → (replace c).count '\n' = 0) :
    ∀ (n : Nat) (s : List Char), s.length ≤ n → ESC ∉ s → ((tokens fin (single nel lsps) s).flatMap Tok.out).count '\n' =
      (toLF s).countP fun c => c = '\n' ∨ (nel ∧ c = NEL) ∨ (lsps ∧ (c = LS ∨ c = PS)) := by
  intro n
  induction n with
  | zero =>
    intro s hs _
    have : s = [] := List.length_eq_zero_iff.1 (by omega)
    subst this; simp [tokens, toLF]
  | succ n ih =>
    intro s hs he
    cases s with
    | nil => simp [tokens, toLF]
    | cons c r =>
      simp only [List.length_cons] at hs
      have her : ESC ∉ r := fun h => he (by simp [h])
      rw [tokens]
      by_cases c2 : c = '\r'
      · have hl := dropOne_le (· = '\n') r
        rw [if_neg (by rw [c2]; decide), if_pos c2, List.flatMap_cons, List.count_append, ih _ (by omega) (fun h => her (mem_dropOne h)), c2, toLF_cr,
          List.countP_cons_of_pos (by simp)]
        simp [Tok.out]; omega
      by_cases c1 : c = '\n'
      · rw [if_pos c1, List.flatMap_cons, List.count_append, ih r (by omega) her, toLF_cons c2, List.countP_cons_of_pos (by simp [c1])]
        simp [Tok.out]; omega
      rw [if_neg c1, if_neg c2]
      by_cases c3 : c = FF
      · have hl := dropWhile_le (· = FF) r
        have hw : (toLF (r.dropWhile (· = FF))).countP (fun c => c = '\n' ∨ (nel ∧ c = NEL) ∨ (lsps ∧ (c = LS ∨ c = PS))) =
            (toLF r).countP fun c => c = '\n' ∨ (nel ∧ c = NEL) ∨ (lsps ∧ (c = LS ∨ c = PS)) := by
          rw [← toLF_dropWhile, countP_dropWhile]
          intro c hc; simp at hc; subst hc
          have : FF ≠ '\n' ∧ FF ≠ NEL ∧ FF ≠ LS ∧ FF ≠ PS := by decide
          simp [this]
        rw [if_pos c3, toLF_cons c2, List.countP_cons_of_neg]
        · simp only
          split
          · rw [ih _ (by omega) (fun h => her (mem_dropWhile h)), hw]
          · rw [List.flatMap_cons, List.count_append, ih _ (by omega) (fun h => her (mem_dropWhile h)), hw]
            simp [Tok.out]
        · subst c3
          have : FF ≠ '\n' ∧ FF ≠ NEL ∧ FF ≠ LS ∧ FF ≠ PS := by decide
          simp [this]
      rw [if_neg c3]
      have c4 : c ≠ ESC := fun h => he (by simp [h])
      rw [if_neg c4, List.flatMap_cons, List.count_append, ih r (by omega) her, toLF_cons c2, List.countP_cons]
      unfold single
      split
      · rename_i h
        rw [if_pos (by simp [h])]
        simp [Tok.out]; omega
      · rename_i h
        rw [if_neg (by simp [c1]; simpa using h)]
        simp [Tok.out, hr c c1]

/-! ## Lines -/

theorem guardStart_append {a b : List Char} (h : a ≠ []) : guardStart U (a ++ b) = guardStart U a ++ b := by
  cases a with
  | nil => exact absurd rfl h
  | cons c a =>
    simp only [guardStart, List.cons_append]
    split <;> rfl

theorem guardEnd_append_nl (a b : List Char) : guardEnd (a ++ '\n' :: b) = a ++ guardEnd ('\n' :: b) := by
  unfold guardEnd
  rw [show (a ++ '\n' :: b).getLast? = ('\n' :: b).getLast? by rw [List.getLast?_append, List.getLast?_cons]; rfl]
  split
  · split
    · rfl
    · simp
  · rfl

/-- A text whose first line is `a`: the other lines are translated as behind an empty first line. -/
theorem translate_line (hU : TextLaws U) (nel lsps : Bool) {a : List Char} (ha : ESC ∉ a) (b : List Char) :
    ∃ Z, translate U nel lsps (a ++ '\n' :: b) = Z ++ translate U nel lsps ('\n' :: b) ∧ translate U nel lsps (a ++ ['\n']) = Z ++ ['\n'] := by
  have hpl : Plain (a ++ ['\n']) := by
    refine ⟨?_, ?_, ?_⟩
    · intro h
      rcases List.mem_append.1 h with h | h
      · exact ha h
      · simp at h; exact absurd h (by decide)
    · rw [List.getLast?_append]; simp
    · rw [List.getLast?_append]; simp; decide
  have hlast := tokens_last_nl finCan (single nel lsps) _ (a ++ ['\n']) (Nat.le_refl _) hpl.1 (by rw [List.getLast?_append]; rfl)
  obtain ⟨ts, hts⟩ : ∃ ts, tokens finCan (single nel lsps) (a ++ ['\n']) = ts ++ [.nl] := by
    rcases List.eq_nil_or_concat (tokens finCan (single nel lsps) (a ++ ['\n'])) with h | ⟨ts, t, h⟩
    · rw [h] at hlast; simp at hlast
    · rw [h, List.concat_eq_append] at hlast
      rw [h, List.concat_eq_append]
      simp at hlast
      exact ⟨ts, by rw [hlast]⟩
  have hb : tokens finCan (single nel lsps) (a ++ '\n' :: b) = ts ++ .nl :: tokens finCan (single nel lsps) b := by
    have := tokens_append (fin := finCan) (one := single nel lsps) _ (a ++ ['\n']) b (Nat.le_refl _) hpl
    rw [List.append_assoc, List.singleton_append] at this
    rw [this, hts]; simp
  have hnl : isStart U '\n' = true := hU.start_ascii '\n' (by decide)
  have hgs : ∀ r : List Char, guardStart U ((ts.flatMap Tok.out) ++ '\n' :: r) = guardStart U ((ts.flatMap Tok.out) ++ ['\n']) ++ r := by
    intro r
    rw [← guardStart_append (by simp)]; simp
  obtain ⟨Z, hZ⟩ : ∃ Z, guardStart U ((ts.flatMap Tok.out) ++ ['\n']) = Z ++ ['\n'] := by
    rcases guardStart_cases U ((ts.flatMap Tok.out) ++ ['\n']) with h | ⟨c, r, -, -, h⟩
    · exact ⟨_, h⟩
    · exact ⟨CGJ :: ts.flatMap Tok.out, by rw [h]; rfl⟩
  have hend : ∀ r : List Char, guardEnd (guardStart U ((ts.flatMap Tok.out) ++ '\n' :: r)) = Z ++ guardEnd (guardStart U ('\n' :: r)) := by
    intro r
    rw [hgs r, hZ, List.append_assoc, List.singleton_append, guardEnd_append_nl]
    simp [guardStart, hnl]
  have hfin : (ts ++ .nl :: tokens finCan (single nel lsps) b).getLast? = (Tok.nl :: tokens finCan (single nel lsps) b).getLast? := by
    rw [List.getLast?_append, List.getLast?_cons]; rfl
  refine ⟨Z, ?_, ?_⟩
  · unfold translate
    simp only
    rw [hb, tokens_nl, hfin]
    have e1 : (ts ++ .nl :: tokens finCan (single nel lsps) b).flatMap Tok.out = ts.flatMap Tok.out ++ '\n' :: (tokens finCan (single nel lsps) b).flatMap Tok.out := by
      simp [Tok.out]
    have e2 : (Tok.nl :: tokens finCan (single nel lsps) b).flatMap Tok.out = '\n' :: (tokens finCan (single nel lsps) b).flatMap Tok.out := by
      simp [Tok.out]
    rw [e1, e2, hend]
    by_cases h : (Tok.nl :: tokens finCan (single nel lsps) b).getLast? = some .nl
    · rw [if_pos (Or.inr h), if_pos (Or.inr h)]
    · rw [if_neg (by simp; simpa using h), if_neg (by simp; simpa using h), List.append_assoc]
  · unfold translate
    simp only
    rw [hts, if_pos (Or.inr (by simp))]
    have := hend []
    rw [List.flatMap_append]
    rw [show [Tok.nl].flatMap Tok.out = ['\n'] from rfl, this]
    simp [guardStart, hnl, guardEnd, show isEnd '\n' = true by decide]

/-! ## The last item -/

/-- Is `c` a newline in this mode? -/
def Spec.isNl (nel lsps : Bool) (c : Char) : Bool := c = '\n' ∨ c = '\r' ∨ (nel ∧ c = NEL) ∨ (lsps ∧ (c = LS ∨ c = PS))

theorem tokens_last_iff {fin : Char → Bool} {nel lsps : Bool} : ∀ (n : Nat) (s : List Char), s.length ≤ n → ESC ∉ s →
    ((tokens fin (single nel lsps) s).getLast? = some .nl ↔ ∃ c ∈ s.getLast?, isNl nel lsps c = true) := by
  have grow : ∀ (t : Tok) (ts : List Tok), ts ≠ [] → (t :: ts).getLast? = ts.getLast? := by
    intro t ts h
    rw [List.getLast?_cons]
    cases hq : ts.getLast? with
    | none => exact absurd (List.getLast?_eq_none_iff.1 hq) h
    | some x => rfl
  have growc : ∀ (t : Char) (ts : List Char), ts ≠ [] → (t :: ts).getLast? = ts.getLast? := by
    intro t ts h
    rw [List.getLast?_cons]
    cases hq : ts.getLast? with
    | none => exact absurd (List.getLast?_eq_none_iff.1 hq) h
    | some x => rfl
  intro n
  induction n with
  | zero =>
    intro s hs _
    have : s = [] := List.length_eq_zero_iff.1 (by omega)
    subst this; simp [tokens]
  | succ n ih =>
    intro s hs he
    cases s with
    | nil => simp [tokens]
    | cons c r =>
      simp only [List.length_cons] at hs
      have her : ESC ∉ r := fun h => he (by simp [h])
      have hne : ∀ s : List Char, s ≠ [] → tokens fin (single nel lsps) s ≠ [] := fun s => tokens_ne_nil _ s (Nat.le_refl _)
      rw [tokens]
      by_cases c1 : c = '\n'
      · rw [if_pos c1]
        by_cases hr : r = []
        · subst hr; subst c1; simp [tokens, isNl]
        · rw [grow _ _ (hne r hr), growc _ _ hr, ih r (by omega) her]
      rw [if_neg c1]
      by_cases c2 : c = '\r'
      · rw [if_pos c2]
        have hl := dropOne_le (· = '\n') r
        by_cases hr : dropOne (· = '\n') r = []
        · rw [hr]
          cases r with
          | nil => subst c2; simp [tokens, isNl]
          | cons d r =>
            simp only [dropOne] at hr
            split at hr
            · rename_i hd; simp at hd; subst hd; subst hr; simp [tokens, isNl]
            · simp at hr
        · rw [grow _ _ (hne _ hr), ih _ (by omega) (fun h => her (mem_dropOne h))]
          cases r with
          | nil => simp [dropOne] at hr
          | cons d r =>
            rw [growc c _ (by simp)]
            simp only [dropOne] at hr ⊢
            split
            · rename_i hd; rw [if_pos hd] at hr; rw [growc d _ hr]
            · rfl
      rw [if_neg c2]
      by_cases c3 : c = FF
      · rw [if_pos c3]
        have hl := dropWhile_le (· = FF) r
        have hlast : ∀ l : List Char, l.dropWhile (· = FF) ≠ [] → (l.dropWhile (· = FF)).getLast? = l.getLast? := by
          intro l
          induction l with
          | nil => simp
          | cons d l ih =>
            intro h
            rw [List.dropWhile_cons] at h ⊢
            split
            · rename_i hd
              rw [if_pos hd] at h
              rw [ih h, growc]
              rintro rfl
              simp at h
            · rfl
        have hall : ∀ l : List Char, l.dropWhile (· = FF) = [] → ∀ x ∈ (FF :: l).getLast?, x = FF := by
          intro l h x hx
          have := List.mem_of_getLast? hx
          rcases List.mem_cons.1 this with h' | h'
          · exact h'
          · clear hx this
            induction l with
            | nil => simp at h'
            | cons d l ih =>
              rw [List.dropWhile_cons] at h
              split at h
              · rename_i hd
                rcases List.mem_cons.1 h' with h' | h'
                · rw [h']; simpa using hd
                · exact ih h h'
              · simp at h
        simp only
        by_cases hr : r.dropWhile (· = FF) = []
        · rw [hr]
          subst c3
          have : ¬ ∃ c ∈ (FF :: r).getLast?, isNl nel lsps c = true := by
            rintro ⟨x, hx, hn⟩
            rw [hall r hr x hx] at hn
            simp only [isNl, decide_eq_true_eq] at hn
            have : FF ≠ '\n' ∧ FF ≠ '\r' ∧ FF ≠ NEL ∧ FF ≠ LS ∧ FF ≠ PS := by decide
            simp [this] at hn
          simp only [this, iff_false]
          simp [tokens]
        · rw [growc c r (by rintro rfl; simp at hr), ← hlast r hr, ← ih _ (by omega) (fun h => her (mem_dropWhile h))]
          split
          · rfl
          · rw [grow _ _ (hne _ hr)]
      rw [if_neg c3]
      have c4 : c ≠ ESC := fun h => he (by simp [h])
      rw [if_neg c4]
      by_cases hr : r = []
      · subst hr
        simp only [tokens, List.getLast?_singleton, Option.some.injEq, Option.mem_def, isNl]
        unfold single
        constructor
        · intro h
          split at h
          · rename_i hq; exact ⟨c, rfl, by simpa [c1, c2] using hq⟩
          · simp at h
        · rintro ⟨d, hd, h⟩
          subst hd
          rw [if_pos (by simpa [c1, c2] using h)]
      · rw [grow _ _ (hne r hr), growc _ _ hr, ih r (by omega) her]

end Verif
