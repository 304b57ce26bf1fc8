import Verif.Props.CutExact
import Verif.Props.Doc
import Verif.Color
import Verif.Props.Lossless

/-! C65, C66: when exactly the result is that of the document's conversion, however the content is cut. -/

namespace Verif
open Ucd Spec Tables

/-- The document's text before isolation, with the code's replacements. -/
theorem like_text {s : List Char} {c d : Char} (he : ESC ∉ s) (hf : 'ﬃ' ∉ s) (hc : s.head? = some c) (hd : s.getLast? = some d) :
    Like ((if NonStarter c then [CGJ] else []) ++ (codeRows s ++ (if NonEnder d then [CGJ] else []))) (Doc.text false false s) := by
  unfold Doc.text
  rw [modes_off]
  have hl := tokens_like _ s (Nat.le_refl _) he hf
  cases s with
  | nil => simp at hc
  | cons c' r =>
    obtain rfl : c' = c := by simpa using hc
    have hcg : Like [CGJ] [CGJ] := Like.refl (by decide +kernel)
    rw [doc_guardStart]
    rw [doc_guardEnd (d := d) (by rw [getLast?_append_ne (by simp)]; exact hd)]
    have hpre : ∀ z, Doc.rows ((if NonStarter c' then [CGJ] else []) ++ z) = (if NonStarter c' then [CGJ] else []) ++ Doc.rows z := by
      intro z
      split
      · exact rows_cgj z
      · rfl
    have hpost : Doc.rows (c' :: r ++ (if NonEnder d then [CGJ] else [])) = Doc.rows (c' :: r) ++ (if NonEnder d then [CGJ] else []) := by
      split
      · rename_i hd'
        rw [rows_append (nonEnder_plain hd hd' he)]
        have : Doc.rows [CGJ] = [CGJ] := by rw [rows_cgj]; unfold Doc.rows; rw [tokens]; rfl
        rw [this]
      · simp
    rw [List.append_assoc, hpre, hpost]
    refine Like.append ?_ (hl.append ?_)
    · split
      · exact hcg
      · exact .nil
    · split
      · exact hcg
      · exact .nil

theorem doc_string_eq {s : List Char} {c d : Char} (he : ESC ∉ s) (hf : 'ﬃ' ∉ s) (hc : s.head? = some c) (hd : s.getLast? = some d) :
    Doc.string false false s = normalize ucd15 ((if NonStarter c then [CGJ] else []) ++ (codeRows s ++ (if NonEnder d then [CGJ] else []))) := by
  unfold Doc.string
  exact (like_normalize (like_text he hf hc hd)).symm

theorem cgj_assigned15 : isAssigned ucd15 CGJ = true := by simp [isAssigned, textLaws15.assigned_cgj]

theorem normalize_cgj_head (z : List Char) : (normalize ucd15 (CGJ :: z)).head? = some CGJ := by
  have hN : ∀ s, normalize ucd15 s = norm3 ucd15 (specGo ucd15 false false s) := fun s => by rw [← spec_isolate_go textLaws15]; rfl
  have : specGo ucd15 false false (CGJ :: z) = CGJ :: specGo ucd15 false true z := by
    simp [specGo, cgj_assigned15]
  rw [hN, this, norm3_inert_cons textLaws15 textLaws15.law.inert_cgj]; rfl

theorem normalize_cgj_last (z : List Char) : (normalize ucd15 (z ++ [CGJ])).getLast? = some CGJ := by
  have hN : ∀ s, normalize ucd15 s = norm3 ucd15 (specGo ucd15 false false s) := fun s => by rw [← spec_isolate_go textLaws15]; rfl
  obtain ⟨X, hX⟩ := specGo_behind (U := ucd15) (d := CGJ) cgj_assigned15 z false false
  rw [hN, hX, norm3_split textLaws15 textLaws15.law.inert_cgj]
  simp [specGo, norm3_nil]

/-! ## The last scalars of the replaced text -/

theorem codeRows_final {d : Char} (h1 : d ≠ '\n') (h2 : d ≠ '\r') (h3 : d ≠ FF) : ∀ (n : Nat) (s : List Char), s.length ≤ n → ESC ∉ s →
    s.getLast? = some d → ∃ X, codeRows s = X ++ replace d := by
  intro n
  induction n with
  | zero => intro s hs _ h; rw [List.length_eq_zero_iff.1 (by omega : s.length = 0)] at h; simp at h
  | succ n ih =>
    intro s hs he hd
    cases s with
    | nil => simp at hd
    | cons c r =>
      simp only [List.length_cons] at hs
      have sub : ∀ (x r' : List Char), r' <:+ r → r' ≠ [] → ∃ X, x ++ codeRows r' = X ++ replace d := by
        intro x r' hr hne
        obtain ⟨X, k⟩ := ih r' (by have := hr.length_le; omega) (fun h => he (by simp [hr.subset h]))
          (by rw [← hd, suffix_last (b := c :: r) (hr.trans ⟨[c], rfl⟩) hne])
        exact ⟨x ++ X, by rw [k, List.append_assoc]⟩
      have hce : c ≠ ESC := fun e => he (by simp [e])
      have hrne : c = '\n' ∨ c = '\r' ∨ c = FF → r ≠ [] := by
        rintro hc rfl
        simp only [List.getLast?_singleton, Option.some.injEq] at hd
        subst hd
        rcases hc with hc | hc | hc
        · exact h1 hc
        · exact h2 hc
        · exact h3 hc
      by_cases g1 : c = '\n'
      · have e : codeRows (c :: r) = ['\n'] ++ codeRows r := by subst g1; unfold codeRows; rw [tokens_nl]; rfl
        rw [e]
        exact sub ['\n'] r (List.suffix_refl _) (hrne (Or.inl g1))
      by_cases g2 : c = '\r'
      · have hne := hrne (Or.inr (Or.inl g2))
        have e : codeRows (c :: r) = ['\n'] ++ codeRows (dropOne (· = '\n') r) := by
          subst g2; unfold codeRows; rw [tokens, if_neg (by decide), if_pos rfl]; rfl
        rw [e]
        cases r with
        | nil => exact absurd rfl hne
        | cons y r =>
          by_cases hy : y = '\n'
          · have hr : r ≠ [] := by
              rintro rfl
              simp at hd
              exact h1 (hd ▸ hy)
            have : dropOne (fun x => decide (x = '\n')) (y :: r) = r := by simp [dropOne, hy]
            rw [this]
            exact sub _ r ⟨[y], rfl⟩ hr
          · have : dropOne (fun x => decide (x = '\n')) (y :: r) = y :: r := by simp [dropOne, hy]
            rw [this]
            exact sub _ _ (List.suffix_refl _) hne
      by_cases g3 : c = FF
      · have e : ∃ x, codeRows (c :: r) = x ++ codeRows (r.dropWhile (fun x => decide (x = FF))) := by
          subst g3
          unfold codeRows
          rw [tokens, if_neg (by decide), if_neg (by decide), if_pos rfl]
          simp only
          split
          · exact ⟨[], rfl⟩
          · exact ⟨[' '], rfl⟩
        obtain ⟨x, e⟩ := e
        rw [e]
        refine sub x _ (List.dropWhile_suffix _) fun h0 => ?_
        have : d ∈ r := by
          have hne := hrne (Or.inr (Or.inr g3))
          rw [List.getLast?_cons, List.getLast?_eq_some_getLast hne] at hd
          simp only [Option.getD_some, Option.some.injEq] at hd
          exact hd ▸ List.getLast_mem hne
        exact h3 (by simpa using dropWhile_nil h0 d this)
      · rw [codeRows_one g1 g2 g3 hce]
        by_cases hr : r = []
        · subst hr
          simp only [List.getLast?_singleton, Option.some.injEq] at hd
          subst hd
          exact ⟨[], by unfold codeRows; rw [tokens]; simp⟩
        · exact sub (replace c) r (List.suffix_refl _) hr

/-- A final form feed is a space for the code, and belongs to the newline that the document adds. -/
theorem codeRows_ff : ∀ (n : Nat) (s : List Char), s.length ≤ n → ESC ∉ s → s.getLast? = some FF →
    (codeRows s).count ' ' = (codeRows (s ++ ['\n'])).count ' ' + 1 := by
  intro n
  induction n with
  | zero => intro s hs _ h; rw [List.length_eq_zero_iff.1 (by omega : s.length = 0)] at h; simp at h
  | succ n ih =>
    intro s hs he hd
    cases s with
    | nil => simp at hd
    | cons c r =>
      simp only [List.length_cons] at hs
      have sub : ∀ (x r' : List Char), r' <:+ r → r' ≠ [] → (x ++ codeRows r').count ' ' = (x ++ codeRows (r' ++ ['\n'])).count ' ' + 1 := by
        intro x r' hr hne
        have k := ih r' (by have := hr.length_le; omega) (fun h => he (by simp [hr.subset h]))
          (by rw [← hd, suffix_last (b := c :: r) (hr.trans ⟨[c], rfl⟩) hne])
        rw [List.count_append, List.count_append, k]; omega
      have hce : c ≠ ESC := fun e => he (by simp [e])
      have hrne : c ≠ FF → r ≠ [] := by
        rintro hc rfl
        simp at hd
        exact hc hd
      by_cases g3 : c = FF
      · subst g3
        have e : codeRows (FF :: r) = (if (r.dropWhile (fun x => decide (x = FF))).head? = some '\n' ∨ (r.dropWhile (fun x => decide (x = FF))).head? = some '\r' then [] else [' ']) ++
            codeRows (r.dropWhile (fun x => decide (x = FF))) := by
          unfold codeRows
          rw [tokens, if_neg (by decide), if_neg (by decide), if_pos rfl]
          simp only
          split <;> rfl
        have e' : codeRows (FF :: (r ++ ['\n'])) = (if ((r ++ ['\n']).dropWhile (fun x => decide (x = FF))).head? = some '\n' ∨ ((r ++ ['\n']).dropWhile (fun x => decide (x = FF))).head? = some '\r' then [] else [' ']) ++
            codeRows ((r ++ ['\n']).dropWhile (fun x => decide (x = FF))) := by
          unfold codeRows
          rw [tokens, if_neg (by decide), if_neg (by decide), if_pos rfl]
          simp only
          split <;> rfl
        rw [List.cons_append, e, e']
        by_cases hr : r.dropWhile (fun x => decide (x = FF)) = []
        · have hall := dropWhile_nil hr
          have : (r ++ ['\n']).dropWhile (fun x => decide (x = FF)) = ['\n'] := by
            rw [List.dropWhile_append, hr]; rfl
          rw [hr, this]
          unfold codeRows
          rw [tokens_nl, tokens]
          decide
        · have : (r ++ ['\n']).dropWhile (fun x => decide (x = FF)) = r.dropWhile (fun x => decide (x = FF)) ++ ['\n'] := by
            rw [List.dropWhile_append, if_neg (by simpa using hr)]
          rw [this]
          have hh : (r.dropWhile (fun x => decide (x = FF)) ++ ['\n']).head? = (r.dropWhile (fun x => decide (x = FF))).head? := by
            cases h : r.dropWhile (fun x => decide (x = FF)) with
            | nil => exact absurd h hr
            | cons a b => rfl
          rw [hh]
          exact sub _ _ (List.dropWhile_suffix _) hr
      have hne := hrne g3
      by_cases g1 : c = '\n'
      · have e : ∀ z, codeRows (c :: z) = ['\n'] ++ codeRows z := by intro z; subst g1; unfold codeRows; rw [tokens_nl]; rfl
        rw [List.cons_append, e, e]
        exact sub ['\n'] r (List.suffix_refl _) hne
      by_cases g2 : c = '\r'
      · have e : ∀ z, codeRows (c :: z) = ['\n'] ++ codeRows (dropOne (· = '\n') z) := by
          intro z; subst g2; unfold codeRows; rw [tokens, if_neg (by decide), if_pos rfl]; rfl
        rw [List.cons_append, e, e]
        cases r with
        | nil => exact absurd rfl hne
        | cons y r =>
          by_cases hy : y = '\n'
          · have hr : r ≠ [] := by
              rintro rfl
              simp at hd
              exact absurd (hd.symm.trans hy) (by decide)
            have : ∀ z, dropOne (fun x => decide (x = '\n')) (y :: z) = z := by simp [dropOne, hy]
            rw [show y :: r ++ ['\n'] = y :: (r ++ ['\n']) from rfl, this, this]
            exact sub _ r ⟨[y], rfl⟩ hr
          · have : ∀ z, dropOne (fun x => decide (x = '\n')) (y :: z) = y :: z := by simp [dropOne, hy]
            rw [show y :: r ++ ['\n'] = y :: (r ++ ['\n']) from rfl, this, this]
            exact sub _ _ (List.suffix_refl _) hne
      · rw [List.cons_append, codeRows_one g1 g2 g3 hce, codeRows_one g1 g2 g3 hce]
        exact sub (replace c) r (List.suffix_refl _) hne

/-! ## The ends of the output -/

/-- The two non-enders the code does not know, on code points. -/
def poundN (n : Nat) : Bool := Nat.beq n 0x890 || Nat.beq n 0x891

theorem compose_pound : composeTree.all (fun key _ => !poundN (key / 0x200000)) = true := by decide +kernel

theorem pound_facts : rangeAll (fun n => !poundN n || (Nat.beq (cccN n) 0 && decompN n == [n] && QC.beq (qcN n) .yes && classN n == [0, 0, 1])) 0x890 2 = true := by
  decide +kernel

theorem divides_pound {c : Char} (h : poundN c.toNat = true) : Divides ucd15 c := by
  have hr : c.toNat = 0x890 ∨ c.toNat = 0x891 := by
    simp only [poundN, Bool.or_eq_true, Nat.beq_eq] at h
    omega
  have hf := rangeAll_mem pound_facts (n := c.toNat) (by omega) (by omega)
  rw [h] at hf
  simp only [Bool.not_true, Bool.false_or, Bool.and_eq_true, beq_iff_eq, qcbeq_iff] at hf
  obtain ⟨⟨⟨h2, h3⟩, h4⟩, h5⟩ := hf
  have hd : ucd15.decomp c = [c] := by
    show (decompN c.toNat).map Char.ofNat = [c]
    rw [h3]; simp
  refine ⟨Nat.eq_of_beq_eq_true h2, hd, fun x => ?_, (lawful15.qc_yes c h4).2 c [] hd, ?_, ?_, ?_⟩
  · cases hx : ucd15.compose c x with
    | none => rfl
    | some r =>
      exfalso
      have hb := validN_lt (validN_toNat x)
      rcases composeN_cases (by omega) (compose_toNat hx) with ⟨hk, -⟩ | ⟨hk, -⟩ | ⟨hf, -⟩
      · omega
      · simp only [isSyl, Bool.and_eq_true, Nat.ble_eq] at hk
        omega
      · have := Tree.find_all compose_pound hf
        rw [show (c.toNat * 0x200000 + x.toNat) / 0x200000 = c.toNat by omega, h] at this
        simp at this
  · show leadN c.toNat = 0; simp [leadN, h5]
  · show trailN c.toNat = 0; simp [trailN, h5]
  · show dlenN c.toNat ≠ 0; simp [dlenN, h5]

/-- The first scalar of a list of segments, if it is inert. -/
theorem segs_head {b : Char} (hb : ucd15.Inert b) (ha : isAssigned ucd15 b = true) (hc : b ≠ CGJ) (segs : List (List Char)) {r : List Char}
    (h : segs.flatten = b :: r) : (segs.flatMap (normChain ucd15)).head? = some b := by
  induction segs with
  | nil => simp at h
  | cons s segs ih =>
    cases s with
    | nil =>
      rw [List.flatMap_cons, normChain_nil, List.nil_append]
      exact ih h
    | cons c s =>
      obtain rfl : c = b := by simpa using congrArg List.head? h
      have := normChain_split textLaws15 hb ha hc [] s
      rw [List.nil_append, normChain_nil, List.nil_append] at this
      rw [List.flatMap_cons, this]; rfl

/-- The last scalar of a list of segments, if everything divides there. -/
theorem segs_last {b : Char} (hb : ∀ x, (normChain ucd15 (x ++ [b])).getLast? = some b) (segs : List (List Char)) {r : List Char}
    (h : segs.flatten = r ++ [b]) : (segs.flatMap (normChain ucd15)).getLast? = some b := by
  rcases List.eq_nil_or_concat segs with rfl | ⟨S, s, rfl⟩
  · simp at h
  rw [List.concat_eq_append] at h ⊢
  induction hn : S.length generalizing S s with
  | zero =>
    obtain rfl : S = [] := List.length_eq_zero_iff.1 hn
    simp only [List.nil_append, List.flatten_cons, List.flatten_nil, List.append_nil] at h
    rw [h]; simp [hb]
  | succ n ih =>
    rcases List.eq_nil_or_concat s with rfl | ⟨x, d, rfl⟩
    · rcases List.eq_nil_or_concat S with rfl | ⟨S', s', rfl⟩
      · simp at hn
      · rw [List.concat_eq_append] at h hn ⊢
        have := ih S' s' (by simpa using h) (by simpa using hn)
        rw [List.flatMap_append]
        simpa [normChain_nil] using this
    · rw [List.concat_eq_append] at h ⊢
      have hd : d = b := by
        have := congrArg List.getLast? h
        rw [List.flatten_append] at this
        simpa using this
      subst hd
      rw [List.flatMap_append, List.getLast?_append]
      simp [hb]

theorem pound_split {b : Char} (h : poundN b.toNat = true) (x : List Char) : (normChain ucd15 (x ++ [b])).getLast? = some b := by
  have hr : b = '࢐' ∨ b = '࢑' := by
    simp only [poundN, Bool.or_eq_true, Nat.beq_eq] at h
    rcases h with h | h
    · left; rw [← Char.ofNat_toNat b, h]
    · right; rw [← Char.ofNat_toNat b, h]
  have := normChain_divide1 (b := b) (by rcases hr with rfl | rfl <;> decide +kernel) (by rcases hr with rfl | rfl <;> decide +kernel)
    (by rcases hr with rfl | rfl <;> decide +kernel) (divides_pound h) x []
  rw [this, List.getLast?_append]; rfl

theorem inherent_rows {c : Char} {r : List Char} (h : inherent c) : codeRows (c :: r) = '�' :: codeRows r := by
  rcases h with rfl | rfl <;> rw [codeRows_one (by decide) (by decide) (by decide) (by decide)] <;> rfl

theorem guardEnd_front (b : Char) (s : List Char) : ∃ r, guardEnd (b :: s) = b :: r := by
  unfold guardEnd
  split
  · split
    · exact ⟨s, rfl⟩
    · exact ⟨_, rfl⟩
  · exact ⟨s, rfl⟩

/-- U+17B4 and U+17B5 become U+FFFD, which needs no guard. -/
theorem inherent_body {c : Char} {r : List Char} (h : inherent c) : ∃ z, body ucd15 (c :: r) = '�' :: z := by
  unfold body
  rw [show List.flatMap Tok.out (tokens finCan (single false false) (c :: r)) = codeRows (c :: r) from rfl, inherent_rows h]
  have : guardStart ucd15 ('�' :: codeRows r) = '�' :: codeRows r := by
    unfold guardStart; simp [show isStart ucd15 '�' = true by decide +kernel]
  rw [this]
  exact guardEnd_front _ _

theorem guardStart_concat (s : List Char) (b : Char) (h : isStart ucd15 b = true) : ∃ r, guardStart ucd15 (s ++ [b]) = r ++ [b] := by
  unfold guardStart
  cases s with
  | nil => exact ⟨[], by simp [h]⟩
  | cons c s =>
    simp only [List.cons_append]
    split
    · exact ⟨c :: s, rfl⟩
    · exact ⟨CGJ :: c :: s, rfl⟩

/-- C65, exactly: for a string that does not begin with U+FEFF and has no ESC and no U+FB03, the result of `from_text_lossy`, however the string is cut,
is the document's conversion if and only if the string does not begin with U+17B4 or U+17B5 and does not end with U+0890 or U+0891, the text,
as it is read, is `Balanced`, and no read but the last ends inside. -/
theorem c65_lossy_is_document_iff (v : List Char) (h0 : v.head? ≠ some '﻿') (h5 : '\x1b' ∉ v) (h6 : 'ﬃ' ∉ v)
    (chunks : List (List Char)) (last : List Char) (hv : chunks.flatten ++ last = v) (hb : SliceReads chunks last) (lens : Nat → Nat)
    (t : List Char) (h : Converts chunks last lens t) :
    t = Doc.string false false v ↔ v.head? ≠ some '឴' ∧ v.head? ≠ some '឵' ∧ v.getLast? ≠ some '࢐' ∧ v.getLast? ≠ some '࢑' ∧
      Balanced ucd15 (translate ucd15 false false v) ∧ ¬ ReadsInside ucd15 false false chunks last := by
  have hd : dropBom v = v := by
    cases v with
    | nil => rfl
    | cons c r => unfold dropBom dropOne; simp only; rw [if_neg]; intro e; exact h0 (by simpa using e)
  have hsw : ¬ Swallowed v := fun g => h5 (swallowed_esc g)
  have key := c04_lossy_is_string_iff v chunks last hv hb lens t h
  rw [hd] at key
  obtain ⟨m, text, k1, k2⟩ := read_of_converts h
  obtain ⟨segs, g1, g2, -⟩ := lossy_run textLaws15 hb k1
  rw [k2, hv] at g2
  replace g2 := Option.some.inj g2
  rw [show bomPrefix v = [] from if_neg h0, List.nil_append] at g2
  rw [hv, hd, lossyText_swallow, if_neg hsw, List.append_nil] at g1
  by_cases hi : v.head? = some '឴' ∨ v.head? = some '឵'
  · refine iff_of_false (fun e => ?_) fun g => hi.elim g.1 g.2.1
    obtain ⟨c, hc, hin⟩ : ∃ c, v.head? = some c ∧ inherent c := by
      rcases hi with hi | hi
      · exact ⟨_, hi, Or.inl rfl⟩
      · exact ⟨_, hi, Or.inr rfl⟩
    cases v with
    | nil => simp at hc
    | cons c' r =>
      obtain rfl : c' = c := by simpa using hc
      obtain ⟨z, hz⟩ := inherent_body (r := r) hin
      have hh := segs_head repl_inert (by decide +kernel) (by decide) segs (g1.trans hz)
      rw [← g2, e, doc_string_eq h5 h6 hc (List.getLast?_eq_some_getLast (by simp)), if_pos, List.singleton_append, normalize_cgj_head] at hh
      · exact absurd hh (by decide)
      · rcases hin with rfl | rfl <;> decide +kernel
  by_cases hl : v.getLast? = some '࢐' ∨ v.getLast? = some '࢑'
  · refine iff_of_false (fun e => ?_) fun g => hl.elim g.2.2.1 g.2.2.2.1
    obtain ⟨d, hd, hp⟩ : ∃ d, v.getLast? = some d ∧ (d = '࢐' ∨ d = '࢑') := by
      rcases hl with hl | hl
      · exact ⟨_, hl, Or.inl rfl⟩
      · exact ⟨_, hl, Or.inr rfl⟩
    cases v with
    | nil => simp at hd
    | cons c r =>
      obtain ⟨X, hX⟩ := codeRows_final (d := d) (by rcases hp with rfl | rfl <;> decide) (by rcases hp with rfl | rfl <;> decide)
        (by rcases hp with rfl | rfl <;> decide) _ (c :: r) (Nat.le_refl _) h5 hd
      have hrep : replace d = [d] := by rcases hp with rfl | rfl <;> decide +kernel
      obtain ⟨r', hr'⟩ := guardStart_concat X d (by rcases hp with rfl | rfl <;> decide +kernel)
      have hbody : body ucd15 (c :: r) = r' ++ [d] := by
        unfold body
        rw [show List.flatMap Tok.out (tokens finCan (single false false) (c :: r)) = codeRows (c :: r) from rfl, hX, hrep, hr']
        unfold guardEnd
        rw [List.getLast?_concat]
        simp only [show isEnd d = true by rcases hp with rfl | rfl <;> decide +kernel, if_true]
      have hh := segs_last (pound_split (by rcases hp with rfl | rfl <;> decide)) segs (g1.trans hbody)
      rw [← g2, e, doc_string_eq h5 h6 rfl hd, if_pos (show NonEnder d by rcases hp with rfl | rfl <;> decide +kernel), ← List.append_assoc,
        normalize_cgj_last] at hh
      rcases hp with rfl | rfl <;> exact absurd hh (by decide)
  · simp only [not_or] at hi hl
    rw [← string_doc h0 h5 h6 ?_ hl.1 hl.2, key]
    · constructor
      · rintro ⟨-, a, b⟩; exact ⟨hi.1, hi.2, hl.1, hl.2, a, b⟩
      · rintro ⟨-, -, -, -, a, b⟩; exact ⟨hsw, a, b⟩
    · rintro c hc (rfl | rfl)
      · exact hi.1 hc
      · exact hi.2 hc

/-- A string with all kinds of scalars the document changes, and U+34F beside an unassigned scalar. -/
example : '\x1b' ∉ ['́', '\x0c', '\r', '͏', '͸', '͏', 'ﬁ', 'ཷ', '‍'] ∧
    fromTextLossy ucd15 [['́', '\x0c', '\r', '͏', '͸', '͏', 'ﬁ']] ['ཷ', '‍'] [4096, 4096, 4096] = some ['͏', '́', '\n', '͏', '͸', '͏', 'f', 'i', 'ྲ', 'ཱ', 'ྀ', '‍', '͏'] ∧
    Doc.string false false ['́', '\x0c', '\r', '͏', '͸', '͏', 'ﬁ', 'ཷ', '‍'] = ['͏', '́', '\n', '͏', '͸', '͏', 'f', 'i', 'ྲ', 'ཱ', 'ྀ', '‍', '͏'] ∧
    Balanced ucd15 (translate ucd15 false false ['́', '\x0c', '\r', '͏', '͸', '͏', 'ﬁ', 'ཷ', '‍']) := by decide +kernel

/-! ## C66 -/

theorem last_isolateGo_cgj (x : List Char) : ∀ need hv, (isolateGo ucd15 need hv (x ++ [CGJ])).getLast? = some CGJ := by
  induction x with
  | nil => intro need hv; cases need <;> simp [isolateGo, cgj_assigned15]
  | cons c x ih =>
    intro need hv
    rw [List.cons_append, isolateGo]
    split
    · rw [List.getLast?_cons_cons, List.getLast?_cons, ih]; rfl
    · rw [List.getLast?_cons, ih]; rfl

theorem last_normChain_cgj (x : List Char) : (normChain ucd15 (x ++ [CGJ])).getLast? = some CGJ := by
  have h := last_isolateGo_cgj x false false
  rw [normChain_eq, isolate]
  obtain ⟨y, e⟩ : ∃ y, isolateGo ucd15 false false (x ++ [CGJ]) = y ++ [CGJ] := by
    obtain ⟨y, e⟩ := List.getLast?_eq_some_iff.1 h
    exact ⟨y, e⟩
  rw [e, norm3_split textLaws15 textLaws15.law.inert_cgj, norm3_nil, List.getLast?_append]; rfl

theorem addNewline_head {s : List Char} {c : Char} (h : s.head? = some c) : (Doc.addNewline s).head? = some c := by
  cases s with
  | nil => simp at h
  | cons d r => unfold Doc.addNewline; split <;> simpa using h

theorem addNewline_mem {s : List Char} {c : Char} (hc : c ≠ '\n') (h : c ∈ Doc.addNewline s) : c ∈ s := by
  unfold Doc.addNewline at h
  split at h
  · exact h
  · simpa [hc] using h

theorem count_normalize (s : List Char) : (normalize ucd15 s).count ' ' = s.count ' ' := by
  have h : ∀ l : List Char, l.count ' ' = (l.filter (· ≠ CGJ)).count ' ' := by
    intro l
    rw [List.count_filter (by decide)]
  rw [h, (normChain_adds textLaws15 s).same, ← h]
  exact count_normChain textLaws15 (textLaws15.ctl_inert ' ' (by decide)) (by decide +kernel) (by decide) _ s (Nat.le_refl _)

theorem count_body (s : List Char) : (body ucd15 s).count ' ' = (codeRows s).count ' ' := by
  unfold body
  rw [show List.flatMap Tok.out (tokens finCan (single false false) s) = codeRows s from rfl]
  have h1 : (guardStart ucd15 (codeRows s)).count ' ' = (codeRows s).count ' ' := by
    unfold guardStart
    split
    · split
      · rfl
      · rw [List.count_cons_of_ne (by decide)]
    · rename_i e; rw [e]
  have h2 : ∀ x, (guardEnd x).count ' ' = x.count ' ' := by
    intro x
    unfold guardEnd
    split
    · split
      · rfl
      · rw [List.count_append]; rfl
    · rfl
  rw [h2, h1]

/-- The document's stream, if the content does not end with a newline or a form feed. -/
theorem doc_stream_open {s : List Char} {c d : Char} (he : ESC ∉ s) (hf : 'ﬃ' ∉ s) (hc : s.head? = some c) (hd : s.getLast? = some d) (h1 : d ≠ '\n')
    (h2 : d ≠ '\r') (h3 : d ≠ FF) : Doc.string false false (Doc.addNewline s) = normalize ucd15 ((if NonStarter c then [CGJ] else []) ++ codeRows s) ++ ['\n'] := by
  have e : Doc.addNewline s = s ++ ['\n'] := by
    unfold Doc.addNewline
    rw [if_neg]
    rintro (h | h | h)
    · subst h; simp at hd
    · rw [hd] at h; exact h1 (Option.some.inj h)
    · rw [hd] at h; exact h2 (Option.some.inj h)
  have hesc : ESC ∉ s ++ ['\n'] := by simp [he, show ESC ≠ '\n' by decide]
  rw [e, doc_string_eq (c := c) (d := '\n') hesc (by simp [hf]) (by rw [List.head?_append, hc]; rfl) (by simp),
    if_neg (show ¬ NonEnder '\n' by decide +kernel), List.append_nil,
    swallowed_codeRows (fun h => h2 (by rw [hd] at h; exact Option.some.inj h)) (fun h => h3 (by rw [hd] at h; exact Option.some.inj h)),
    if_neg (fun g => hesc (swallowed_esc g)), ← List.append_assoc, normalize_nl textLaws15]

/-- C66, exactly: for a content that has no ESC and no U+FB03, whose U+FEFF, if any, comes with the first read, a reader without the modes delivers the
document's stream conversion if and only if the content, apart from U+FEFF, does not begin with U+17B4 or U+17B5, does not end with U+C or a
non-ender other than U+0890 and U+0891, the text, as it is read, is `Balanced`, and no read but the last ends inside. -/
theorem c66_reader_is_document_iff (chunks : List (List Char)) (last : List Char) (lens : List Nat) (s : List Char)
    (hs : chunks.flatten ++ last = s) (h5 : '\x1b' ∉ s) (h6 : 'ﬃ' ∉ s) (hb : (chunks ++ [last]).head? ≠ some [] ∨ s.head? ≠ some '﻿')
    (h : Completes ucd15 false false (script chunks last) lens) :
    output ucd15 false false (script chunks last) lens = Doc.stream false false s ↔
      (dropBom s).head? ≠ some '឴' ∧ (dropBom s).head? ≠ some '឵' ∧ (dropBom s).getLast? ≠ some '\x0c' ∧
      (∀ c ∈ (dropBom s).getLast?, NonEnder c → c = '࢐' ∨ c = '࢑') ∧
      Balanced ucd15 (translate ucd15 false false (dropBom s)) ∧ ¬ ReadsInside ucd15 false false chunks last := by
  subst hs
  have hbs : BomSafe chunks last := hb
  have key := c17_reader_is_stream_iff false false chunks last lens h
  obtain ⟨r0, n0, hr0, hok0⟩ := h
  obtain ⟨-, -, -, segs, g1, g2, g3⟩ := run_script textLaws15 hbs hr0 hok0
  have g2 : output ucd15 false false (script chunks last) lens = segs.flatMap (normChain ucd15) := g2
  unfold Doc.stream
  unfold Spec.stream at key
  have h5' : ESC ∉ dropBom (chunks.flatten ++ last) := fun g => h5 (mem_dropOne g)
  have h6' : 'ﬃ' ∉ dropBom (chunks.flatten ++ last) := fun g => h6 (mem_dropOne g)
  generalize hS : dropBom (chunks.flatten ++ last) = S at *
  have hsw : ¬ Swallowed S := fun g => h5' (swallowed_esc g)
  have hT : translate ucd15 false false S = body ucd15 S ++ (if Closed S then [] else ['\n']) := by
    rw [translate_lossyText, lossyText_swallow, if_neg hsw, List.append_nil]
  by_cases hi : S.head? = some '឴' ∨ S.head? = some '឵'
  · refine iff_of_false (fun e => ?_) fun g => hi.elim g.1 g.2.1
    obtain ⟨c, hc, hin⟩ : ∃ c, S.head? = some c ∧ inherent c := by
      rcases hi with hi | hi
      · exact ⟨_, hi, Or.inl rfl⟩
      · exact ⟨_, hi, Or.inr rfl⟩
    have hc' := addNewline_head hc
    have hne : Doc.addNewline S ≠ [] := by intro h0; rw [h0] at hc'; simp at hc'
    cases S with
    | nil => simp at hc
    | cons c' r =>
      obtain rfl : c' = c := by simpa using hc
      obtain ⟨z, hz⟩ := inherent_body (r := r) hin
      rw [hz, List.cons_append] at hT
      have hh := segs_head repl_inert (by decide +kernel) (by decide) segs (g1.symm.trans hT)
      rw [← g2, e, doc_string_eq (fun g => h5' (addNewline_mem (by decide) g)) (fun g => h6' (addNewline_mem (by decide) g)) hc'
        (List.getLast?_eq_some_getLast hne), if_pos, List.singleton_append, normalize_cgj_head] at hh
      · exact absurd hh (by decide)
      · rcases hin with rfl | rfl <;> decide +kernel
  simp only [not_or] at hi
  have hin : ∀ c ∈ S.head?, ¬ inherent c := by
    rintro c hc (rfl | rfl)
    · exact hi.1 hc
    · exact hi.2 hc
  by_cases hl : S.getLast? = some FF
  · refine iff_of_false (fun e => ?_) fun g => g.2.2.1 hl
    have hne : S ≠ [] := by rintro rfl; simp at hl
    have ho : (output ucd15 false false (script chunks last) lens).count ' ' = (codeRows S).count ' ' := by
      rw [g2, count_segs textLaws15 (textLaws15.ctl_inert ' ' (by decide)) (by decide +kernel) (by decide), ← g1, hT, List.count_append, count_body]
      split <;> rfl
    have ha : Doc.addNewline S = S ++ ['\n'] := by
      unfold Doc.addNewline
      rw [if_neg]
      rintro (h | h | h)
      · exact hne h
      · rw [hl] at h; exact absurd (Option.some.inj h) (by decide)
      · rw [hl] at h; exact absurd (Option.some.inj h) (by decide)
    have hesc : ESC ∉ S ++ ['\n'] := by simp [h5', show ESC ≠ '\n' by decide]
    rw [e, ha, doc_string_eq (c := S.head hne) (d := '\n') hesc (by simp [h6']) (by rw [List.head?_append, List.head?_eq_some_head hne]; rfl) (by simp),
      count_normalize, List.count_append, List.count_append] at ho
    have := codeRows_ff _ S (Nat.le_refl _) h5' hl
    have z : ∀ p : Prop, ∀ [Decidable p], (if p then [CGJ] else []).count ' ' = 0 := by intro p _; split <;> rfl
    rw [z, z] at ho
    omega
  by_cases hE : ∃ d, S.getLast? = some d ∧ isEnd d = false
  · obtain ⟨d, hd, hE⟩ := hE
    have d1 : d ≠ '\n' := by rintro rfl; exact absurd hE (by decide +kernel)
    have d2 : d ≠ '\r' := by rintro rfl; exact absurd hE (by decide +kernel)
    have d3 : d ≠ FF := by rintro rfl; exact absurd hE (by decide +kernel)
    have d4 : d ≠ '࢐' := by rintro rfl; exact absurd hE (by decide +kernel)
    have d5 : d ≠ '࢑' := by rintro rfl; exact absurd hE (by decide +kernel)
    have hN : NonEnder d := (c56_end_partial d d4 d5).1 hE
    refine iff_of_false (fun e => ?_) fun g => (g.2.2.2.1 d hd hN).elim d4 d5
    have hne : S ≠ [] := by rintro rfl; simp at hd
    obtain ⟨e', d', k1, k2, k3⟩ := codeRows_last _ S (Nat.le_refl _) h5' hne
    obtain rfl : d' = d := by rw [hd] at k2; exact (Option.some.inj k2).symm
    have he' : isEnd e' = false := k3.trans hE
    have hcl : ¬ Closed S := by
      rintro (h | h | h)
      · exact hne h
      · rw [hd] at h; exact d1 (Option.some.inj h)
      · rw [hd] at h; exact d2 (Option.some.inj h)
    obtain ⟨y, hy⟩ := List.getLast?_eq_some_iff.1 k1
    have hgs : ∃ X, guardStart ucd15 (codeRows S) = X ++ [e'] := by
      unfold guardStart
      split
      · split
        · exact ⟨y, hy⟩
        · exact ⟨CGJ :: y, by rw [hy]; rfl⟩
      · rename_i h0; rw [h0] at hy; exact ⟨y, hy⟩
    obtain ⟨X, hX⟩ := hgs
    have hbody : body ucd15 S = X ++ [e'] ++ [CGJ] := by
      unfold body
      rw [show List.flatMap Tok.out (tokens finCan (single false false) S) = codeRows S from rfl, hX]
      unfold guardEnd
      rw [List.getLast?_concat]
      simp only [he']
      rfl
    rw [hbody, if_neg hcl] at hT
    obtain ⟨segs', q1, q2⟩ := segs_pop textLaws15 g3 (g1.symm.trans hT)
    have hlast := segs_last last_normChain_cgj segs' q1
    have hc0 : S.head? = some (S.head hne) := List.head?_eq_some_head hne
    rw [g2, q2, doc_stream_open h5' h6' hc0 hd d1 d2 d3, List.append_cancel_right_eq] at e
    rw [e, hy, ← List.append_assoc] at hlast
    have hN : ∀ s, normalize ucd15 s = norm3 ucd15 (specGo ucd15 false false s) := fun s => by rw [← spec_isolate_go textLaws15]; rfl
    obtain ⟨Z, hZ⟩ := specGo_behind (U := ucd15) (d := e') (by simp [isAssigned, textLaws15.end_assigned _ he'])
      ((if NonStarter (S.head hne) then [CGJ] else []) ++ y) false false
    rw [hN, hZ, norm3_split textLaws15 (textLaws15.end_inert _ he')] at hlast
    have hnil : specGo ucd15 false (e' == CGJ) [] = [] := rfl
    rw [hnil, norm3_nil, List.getLast?_append] at hlast
    have : e' = CGJ := by simpa using hlast
    subst this
    exact absurd he' (by decide +kernel)
  · have hE' : ∀ d ∈ S.getLast?, isEnd d = true := by
      intro d hd
      cases hx : isEnd d with
      | true => rfl
      | false => exact absurd ⟨d, hd, hx⟩ hE
    have hend : ∀ c ∈ S.getLast?, NonEnder c → c = '࢐' ∨ c = '࢑' := by
      intro c hc hn
      apply Classical.byContradiction
      intro g
      simp only [not_or] at g
      have := (c56_end_partial c g.1 g.2).2 hn
      rw [hE' c hc] at this
      simp at this
    have heq : normalize ucd15 (translate ucd15 false false S) = Doc.string false false (Doc.addNewline S) := by
      by_cases hp : S.getLast? = some '࢐' ∨ S.getLast? = some '࢑'
      · obtain ⟨d, hd, hp⟩ : ∃ d, S.getLast? = some d ∧ (d = '࢐' ∨ d = '࢑') := by
          rcases hp with hp | hp
          · exact ⟨_, hp, Or.inl rfl⟩
          · exact ⟨_, hp, Or.inr rfl⟩
        have d1 : d ≠ '\n' := by rcases hp with rfl | rfl <;> decide
        have d2 : d ≠ '\r' := by rcases hp with rfl | rfl <;> decide
        have d3 : d ≠ FF := by rcases hp with rfl | rfl <;> decide
        cases S with
        | nil => simp at hd
        | cons c r =>
          have hcl : ¬ Closed (c :: r) := by
            rintro (h | h | h)
            · simp at h
            · rw [hd] at h; exact d1 (Option.some.inj h)
            · rw [hd] at h; exact d2 (Option.some.inj h)
          rw [doc_stream_open h5' h6' rfl hd d1 d2 d3, hT, if_neg hcl, normalize_nl textLaws15]
          congr 2
          unfold body
          rw [show List.flatMap Tok.out (tokens finCan (single false false) (c :: r)) = codeRows (c :: r) from rfl,
            code_guardStart (fun e => h5' (by simp [e])) (hin c rfl)]
          obtain ⟨e', d', k1, k2, k3⟩ := codeRows_last _ (c :: r) (Nat.le_refl _) h5' (by simp)
          have hne : codeRows (c :: r) ≠ [] := by intro h0; rw [h0] at k1; simp at k1
          unfold guardEnd
          rw [getLast?_append_ne hne, k1]
          simp only [k3, hE' d' k2, if_true]
      · simp only [not_or] at hp
        exact like_normalize (like_stream h5' h6' hin hl fun c hc hn => (hend c hc hn).elim (fun e => hp.1 (e ▸ hc)) fun e => hp.2 (e ▸ hc))
    rw [← heq, key]
    constructor
    · rintro ⟨-, a, b⟩; exact ⟨hi.1, hi.2, hl, hend, a, b⟩
    · rintro ⟨-, -, -, -, a, b⟩; exact ⟨hbs, a, b⟩

/-- The final U+0890 is fine for the stream. -/
example : output ucd15 false false (script [['﻿', '́', 'ﬁ', '\x0c', '\r']] ['͏', '͸', '͏', '࢐']) [136, 136, 136] =
    ['͏', '́', 'f', 'i', '\n', '͏', '͸', '͏', '࢐', '\n'] ∧
    Doc.stream false false ['﻿', '́', 'ﬁ', '\x0c', '\r', '͏', '͸', '͏', '࢐'] = ['͏', '́', 'f', 'i', '\n', '͏', '͸', '͏', '࢐', '\n'] := by decide +kernel

end Verif
