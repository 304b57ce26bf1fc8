import Verif.Props.Unicode
import Verif.SpecString

/-!
# The document's conversions, step by step

`Doc.string` and `Doc.stream` are `docs/BasicText.md:173-189` and `231-238` taken literally: each step a function on the whole
string.  `Like` relates the texts the code and the document normalize; `like_normalize` shows that the difference disappears.
-/

namespace Verif
open Ucd Spec Tables

namespace Doc

instance (c : Char) : Decidable (NonStarter c) := by unfold NonStarter; infer_instance
instance (c : Char) : Decidable (NonEnder c) := by unfold NonEnder; infer_instance

/-- "If the string starts with a Basic Text non-starter, prepend U+34F." -/
def guardStart : List Char → List Char
  | c :: r => if NonStarter c then '͏' :: c :: r else c :: r
  | [] => []

/-- "If the string ends with a Basic Text non-ender, append U+34F." -/
def guardEnd (s : List Char) : List Char :=
  match s.getLast? with
  | some c => if NonEnder c then s ++ ['͏'] else s
  | none => s

/-- "When NEL Compatibility is enabled, replace any U+85 with U+A. When LSPS Compatibility is enabled, replace any U+2028 or
U+2029 with U+A." -/
def modes (nel lsps : Bool) (c : Char) : Char := if (nel ∧ c = NEL) ∨ (lsps ∧ (c = LS ∨ c = PS)) then '\n' else c

/-- The row for a single scalar, if there is one. -/
def row (c : Char) : Tok := .text ((docRow c).getD [c])

/-- "Perform the Replacement actions from the Sequence Table." -/
def rows (s : List Char) : List Char := (tokens final row s).flatMap Tok.out

/-- From Unicode string to Basic Text string, before isolation. -/
def text (nel lsps : Bool) (s : List Char) : List Char := rows ((guardEnd (guardStart s)).map (modes nel lsps))

/-- From Unicode string to Basic Text string. -/
def string (nel lsps : Bool) (s : List Char) : List Char :=
  ucd15.nfc (ucd15.streamSafe 0 (Spec.isolate ucd15 (text nel lsps s)))

/-- "If the stream is non-empty and doesn't end with U+A or U+D, append a U+A." -/
def addNewline (s : List Char) : List Char := if s = [] ∨ s.getLast? = some '\n' ∨ s.getLast? = some '\r' then s else s ++ ['\n']

/-- From Unicode stream to Basic Text stream. -/
def stream (nel lsps : Bool) (s : List Char) : List Char := string nel lsps (addNewline (dropBom s))

end Doc

/-! ## Texts with the same normalization -/

/-- Blocks that differ between code and document, with the same normalization. -/
inductive Block : List Char → List Char → Prop
  | same (c : Char) : ucd15.cjk c = [c] → Block [c] [c]
  | cjk (c : Char) : inRanges docCjk c.toNat = true → Block [c] (ucd15.cjk c)
  | ohm : Block ['\u2126'] ['Ω']
  | kelvin : Block ['\u212a'] ['K']
  | angstrom : Block ['\u212b'] ['Å']
  | vocalicR : Block ['ྲ', '\u0f81'] ['ྲ', 'ཱ', 'ྀ']
  | vocalicL : Block ['ླ', '\u0f81'] ['ླ', 'ཱ', 'ྀ']

/-- Texts made of corresponding blocks. -/
inductive Like : List Char → List Char → Prop
  | nil : Like [] []
  | cons {x y a b : List Char} : Block x y → Like a b → Like (x ++ a) (y ++ b)

theorem Like.append {a b c d : List Char} (h : Like a b) (h' : Like c d) : Like (a ++ c) (b ++ d) := by
  induction h with
  | nil => exact h'
  | cons hb _ ih => rw [List.append_assoc, List.append_assoc]; exact .cons hb ih

theorem Like.refl {l : List Char} (h : ∀ c ∈ l, ucd15.cjk c = [c]) : Like l l := by
  induction l with
  | nil => exact .nil
  | cons c l ih => exact .cons (.same c (h c (by simp))) (ih fun d hd => h d (by simp [hd]))

theorem Like.block {x y : List Char} (h : Block x y) : Like x y := by simpa using Like.cons h .nil

theorem cjk_cgj : ucd15.cjk CGJ = [CGJ] := by decide +kernel

/-- A block other than a single scalar kept as it is consists of assigned scalars other than CGJ. -/
theorem Block.cases {x y : List Char} (h : Block x y) : (∃ c, x = [c] ∧ y = [c] ∧ ucd15.cjk c = [c]) ∨
    (x ≠ [] ∧ y ≠ [] ∧ ∀ c ∈ x ++ y, isAssigned ucd15 c = true ∧ c ≠ CGJ) := by
  cases h with
  | same c h => exact Or.inl ⟨c, rfl, rfl, h⟩
  | cjk c h =>
    right
    obtain ⟨h1, h2, h3, h4⟩ := cjk_row h
    refine ⟨by simp, textLaws15.cjk_ne c, ?_⟩
    intro d hd
    rcases List.mem_append.1 hd with hd | hd
    · simp at hd; subst hd
      exact ⟨h2, fun e => h4 (e ▸ cjk_cgj)⟩
    · refine ⟨(h3 d hd).1, ?_⟩
      rintro rfl
      rcases cjk15_cases c with ⟨h5, -⟩ | ⟨v, h5, h6, -⟩
      · exact h4 h5
      · rw [h6, List.mem_map] at hd
        obtain ⟨n, hn, hc⟩ := hd
        have := Tree.find_all cjk_no_cgj h5
        rw [List.all_eq_true] at this
        have hv := Tree.find_all cjk_entries h5
        simp only [cjkEntry, Bool.and_eq_true, List.all_eq_true] at hv
        have hnn := congrArg Char.toNat hc
        rw [toNat_ofNat (hv.1.2 n hn)] at hnn
        have := this n hn
        rw [hnn] at this
        revert this; decide
  | ohm => exact Or.inr (by decide +kernel)
  | kelvin => exact Or.inr (by decide +kernel)
  | angstrom => exact Or.inr (by decide +kernel)
  | vocalicR => exact Or.inr (by decide +kernel)
  | vocalicL => exact Or.inr (by decide +kernel)
where
  cjk_no_cgj : cjkTree.all (fun _ v => v.all fun n => !Nat.beq n 0x34f) = true := by decide +kernel

/-! ### Isolation -/

theorem isolateBefore_skip {l r : List Char} {p : Option Char} (h : ∀ c ∈ l, isAssigned ucd15 c = true ∧ c ≠ CGJ) (hl : l ≠ []) :
    ∃ q, q ≠ some CGJ ∧ isolateBefore ucd15 p (l ++ r) = l ++ isolateBefore ucd15 q r := by
  induction l generalizing p with
  | nil => exact absurd rfl hl
  | cons c l ih =>
    obtain ⟨h1, h2⟩ := h c (by simp)
    simp only [List.cons_append, isolateBefore, h1, Bool.not_true, Bool.false_and, Bool.false_eq_true, if_false]
    cases l with
    | nil => exact ⟨some c, by simpa using h2, rfl⟩
    | cons d l =>
      obtain ⟨q, h3, h4⟩ := ih (p := some c) (fun e he => h e (by simp [he])) (by simp)
      exact ⟨q, h3, by rw [h4]⟩

theorem isolateAfter_skip {l r : List Char} (h : ∀ c ∈ l, isAssigned ucd15 c = true) :
    isolateAfter ucd15 (l ++ r) = l ++ isolateAfter ucd15 r := by
  induction l with
  | nil => rfl
  | cons c l ih =>
    simp only [List.cons_append, isolateAfter, h c (by simp), Bool.not_true, Bool.false_and, Bool.false_eq_true, if_false]
    rw [ih (fun d hd => h d (by simp [hd]))]

theorem like_isolateBefore {a b : List Char} (h : Like a b) : ∀ {p q : Option Char}, (p = some CGJ ↔ q = some CGJ) →
    Like (isolateBefore ucd15 p a) (isolateBefore ucd15 q b) := by
  induction h with
  | nil => intro p q _; exact .nil
  | @cons x y a b hb _ ih =>
    intro p q hpq
    rcases hb.cases with ⟨c, rfl, rfl, hc⟩ | ⟨h1, h2, h3⟩
    · simp only [List.singleton_append, isolateBefore]
      have e : (p != some CGJ) = (q != some CGJ) := by rw [Bool.eq_iff_iff]; simp [hpq]
      rw [e]
      split
      · exact .cons (.same CGJ cjk_cgj) (.cons hb (ih Iff.rfl))
      · exact .cons hb (ih Iff.rfl)
    · obtain ⟨p', hp', e1⟩ := isolateBefore_skip (l := x) (r := a) (p := p) (fun c hc => h3 c (by simp [hc])) h1
      obtain ⟨q', hq', e2⟩ := isolateBefore_skip (l := y) (r := b) (p := q) (fun c hc => h3 c (by simp [hc])) h2
      rw [e1, e2]
      exact .cons hb (ih (by simp [hp', hq']))

theorem like_head {a b : List Char} (h : Like a b) : a.head? = some CGJ ↔ b.head? = some CGJ := by
  cases h with
  | nil => exact Iff.rfl
  | @cons x y a b hb h' =>
    rcases hb.cases with ⟨c, rfl, rfl, hc⟩ | ⟨h1, h2, h3⟩
    · simp
    · cases x with
      | nil => exact absurd rfl h1
      | cons c x =>
        cases y with
        | nil => exact absurd rfl h2
        | cons d y => have := (h3 c (by simp)).2; have := (h3 d (by simp)).2; simp_all

theorem like_isolateAfter {a b : List Char} (h : Like a b) : Like (isolateAfter ucd15 a) (isolateAfter ucd15 b) := by
  induction h with
  | nil => exact .nil
  | @cons x y a b hb h' ih =>
    rcases hb.cases with ⟨c, rfl, rfl, hc⟩ | ⟨h1, h2, h3⟩
    · simp only [List.singleton_append, isolateAfter]
      have e : (a.head? != some CGJ) = (b.head? != some CGJ) := by rw [Bool.eq_iff_iff]; simp [like_head h']
      rw [e]
      split
      · exact .cons hb (.cons (.same CGJ cjk_cgj) ih)
      · exact .cons hb ih
    · rw [isolateAfter_skip (l := x) (fun c hc => (h3 c (by simp [hc])).1), isolateAfter_skip (l := y) (fun c hc => (h3 c (by simp [hc])).1)]
      exact .cons hb ih

theorem like_isolate {a b : List Char} (h : Like a b) : Like (Spec.isolate ucd15 a) (Spec.isolate ucd15 b) :=
  like_isolateAfter (like_isolateBefore h Iff.rfl)

/-! ### Stream-safe process and decomposition -/

/-- Decomposition of the stream-safe text. -/
def ssd (n : Nat) (s : List Char) : List Char := (ucd15.streamSafe n s).flatMap ucd15.decomp

theorem ssd_cons (n : Nat) (c : Char) (s : List Char) : ssd n (c :: s) =
    (if n + ucd15.lead c > maxNonstarters then ucd15.decomp CGJ ++ ucd15.decomp c ++ ssd (ucd15.nxt 0 c) s else ucd15.decomp c ++ ssd (ucd15.nxt n c) s) := by
  unfold ssd
  simp only [streamSafe]
  split <;> simp

theorem ssd_prefix (l : List Char) {a b : List Char} (h : ∀ n, ssd n a = ssd n b) : ∀ n, ssd n (l ++ a) = ssd n (l ++ b) := by
  induction l with
  | nil => exact h
  | cons c l ih =>
    intro n
    rw [List.cons_append, List.cons_append, ssd_cons, ssd_cons, ih, ih]

/-- A starter that counts nothing. -/
theorem ssd_zero {c d : Char} (h : ucd15.lead c = 0 ∧ ucd15.trail c = 0 ∧ ucd15.dlen c ≠ 0) (h' : ucd15.lead d = 0 ∧ ucd15.trail d = 0 ∧ ucd15.dlen d ≠ 0)
    (hd : ucd15.decomp c = ucd15.decomp d) {a b : List Char} (hab : ssd 0 a = ssd 0 b) (n : Nat) : ssd n (c :: a) = ssd n (d :: b) := by
  have e : ∀ {x : Char} {m : Nat}, (ucd15.lead x = 0 ∧ ucd15.trail x = 0 ∧ ucd15.dlen x ≠ 0) → ucd15.nxt m x = 0 := by
    rintro x m ⟨h1, h2, h3⟩
    unfold nxt
    rw [if_neg (by omega), h2]
  rw [ssd_cons, ssd_cons, h.1, h'.1, e h, e h, e h', e h', hd, hab]

theorem ssd_vowel {a b : List Char} (h : ∀ n, ssd n a = ssd n b) : ssd 0 ('\u0f81' :: a) = ssd 0 ('ཱ' :: 'ྀ' :: b) := by
  have f1 : ucd15.lead '\u0f81' = 2 ∧ ucd15.nxt 0 '\u0f81' = 2 := by decide +kernel
  have f2 : ucd15.lead 'ཱ' = 1 ∧ ucd15.nxt 0 'ཱ' = 1 := by decide +kernel
  have f3 : ucd15.lead 'ྀ' = 1 ∧ ucd15.nxt 1 'ྀ' = 2 := by decide +kernel
  have f4 : ucd15.decomp '\u0f81' = ucd15.decomp 'ཱ' ++ ucd15.decomp 'ྀ' := by decide +kernel
  rw [ssd_cons, f1.1, f1.2, if_neg (by decide), ssd_cons, f2.1, f2.2, if_neg (by decide), ssd_cons, f3.1, f3.2, if_neg (by decide), f4, h,
    List.append_assoc]

theorem like_ssd {a b : List Char} (h : Like a b) : ∀ n, ssd n (ucd15.cjkVariants a) = ssd n b := by
  induction h with
  | nil => intro n; rfl
  | @cons x y a b hb _ ih =>
    have e : ∀ x : List Char, ucd15.cjkVariants (x ++ a) = x.flatMap ucd15.cjk ++ ucd15.cjkVariants a := by
      intro x; simp [Ucd.cjkVariants]
    rw [e]
    cases hb with
    | same c hc => intro n; simp only [List.flatMap_cons, List.flatMap_nil, hc, List.append_nil]; exact ssd_prefix _ ih n
    | cjk c hc => intro n; simp only [List.flatMap_cons, List.flatMap_nil, List.append_nil]; exact ssd_prefix _ ih n
    | ohm =>
      intro n
      rw [show ['\u2126'].flatMap ucd15.cjk = ['\u2126'] by decide +kernel]
      exact ssd_zero (by decide +kernel) (by decide +kernel) (by decide +kernel) (ih 0) n
    | kelvin =>
      intro n
      rw [show ['\u212a'].flatMap ucd15.cjk = ['\u212a'] by decide +kernel]
      exact ssd_zero (by decide +kernel) (by decide +kernel) (by decide +kernel) (ih 0) n
    | angstrom =>
      intro n
      rw [show ['\u212b'].flatMap ucd15.cjk = ['\u212b'] by decide +kernel]
      have f1 : ucd15.lead '\u212b' = 0 ∧ ∀ m, ucd15.nxt m '\u212b' = ucd15.trail '\u212b' := by
        refine ⟨by decide +kernel, fun m => ?_⟩
        unfold nxt
        rw [if_neg (by decide +kernel)]
      have f2 : ucd15.lead 'Å' = 0 ∧ ∀ m, ucd15.nxt m 'Å' = ucd15.trail 'Å' := by
        refine ⟨by decide +kernel, fun m => ?_⟩
        unfold nxt
        rw [if_neg (by decide +kernel)]
      have f3 : ucd15.decomp '\u212b' = ucd15.decomp 'Å' := by decide +kernel
      have f4 : ucd15.trail '\u212b' = ucd15.trail 'Å' := by decide +kernel
      rw [List.singleton_append, List.singleton_append, ssd_cons, ssd_cons, f1.1, f2.1, f1.2, f1.2, f2.2, f2.2, f3, f4, ih]
    | vocalicR =>
      intro n
      rw [show ['ྲ', '\u0f81'].flatMap ucd15.cjk = ['ྲ', '\u0f81'] by decide +kernel]
      exact ssd_zero (by decide +kernel) (by decide +kernel) rfl (ssd_vowel ih) n
    | vocalicL =>
      intro n
      rw [show ['ླ', '\u0f81'].flatMap ucd15.cjk = ['ླ', '\u0f81'] by decide +kernel]
      exact ssd_zero (by decide +kernel) (by decide +kernel) rfl (ssd_vowel ih) n

theorem like_normalize {a b : List Char} (h : Like a b) :
    Spec.normalize ucd15 a = ucd15.nfc (ucd15.streamSafe 0 (Spec.isolate ucd15 b)) := by
  have := like_ssd (like_isolate h) 0
  unfold ssd at this
  unfold Spec.normalize nfc nfd
  rw [this]

/-! ## Rows of single scalars -/

theorem rows_ok : docRows.all (fun r => r.2.all fun n => okN n && validN n) = true := by decide +kernel

theorem like_row {c : Char} (h1 : c ≠ '\r') (h2 : c ≠ FF) (h3 : c ≠ ESC) (h4 : c ≠ 'ﬃ') : Like (replace c) (Doc.row c).out := by
  show Like (replace c) ((docRow c).getD [c])
  cases hd : docRow c with
  | none =>
    rw [c57_no_row c hd h1 h2 h3]
    refine Like.block (.same c (cjk_of_ok (okChar_check.2 ⟨?_, h3⟩)))
    have := c57_check c h1 h2 h3
    cases hc : checkChar c with
    | none => rfl
    | some e => exact absurd hd (this.1 (by simp [hc]))
  | some l =>
    simp only [Option.getD_some]
    unfold docRow at hd
    cases hr : docRowN c.toNat with
    | none =>
      rw [hr] at hd
      simp only at hd
      split at hd
      · rename_i hc
        injection hd with hd
        subst hd
        rw [(cjk_row hc).1]
        exact Like.block (.cjk c hc)
      · simp at hd
    | some v =>
      rw [hr] at hd
      simp only [Option.some.injEq] at hd
      subst hd
      cases ho : oddRow c.toNat with
      | false =>
        rw [replace_map, row_replace hr ho (fun h => h3 (Char.toNat_inj.1 h))]
        refine Like.refl ?_
        intro d hd
        obtain ⟨n, hn, rfl⟩ := List.mem_map.1 hd
        have hm : ∃ r ∈ docRows, r.2 = v := by
          unfold docRowN at hr
          rw [Option.map_eq_some_iff] at hr
          obtain ⟨r, k1, k2⟩ := hr
          exact ⟨r, List.mem_of_find?_eq_some k1, k2⟩
        obtain ⟨r, hr1, rfl⟩ := hm
        have := List.all_eq_true.1 (List.all_eq_true.1 rows_ok r hr1) n hn
        rw [Bool.and_eq_true] at this
        apply cjk_of_ok
        rw [okChar_iff, toNat_ofNat this.2, this.1]
      | true =>
        simp only [oddRow, Bool.or_eq_true, ohmN_iff, beq_iff] at ho
        have hodd : c = 'ཷ' ∨ c = 'ཹ' ∨ c = '\u2126' ∨ c = '\u212a' ∨ c = '\u212b' := by
          simp only [← Char.toNat_inj]
          have : c.toNat ≠ 0xfb03 := fun h => h4 (Char.toNat_inj.1 h)
          show c.toNat = 0xf77 ∨ c.toNat = 0xf79 ∨ c.toNat = 0x2126 ∨ c.toNat = 0x212a ∨ c.toNat = 0x212b
          omega
        have hv : docRowN c.toNat = some v := hr
        rcases hodd with rfl | rfl | rfl | rfl | rfl
        · have : docRowN 'ཷ'.toNat = some [0xfb2, 0xf71, 0xf80] := by decide +kernel
          rw [this] at hv; injection hv with hv; subst hv
          rw [show replace 'ཷ' = ['ྲ', '\u0f81'] by decide +kernel]; exact Like.block .vocalicR
        · have : docRowN 'ཹ'.toNat = some [0xfb3, 0xf71, 0xf80] := by decide +kernel
          rw [this] at hv; injection hv with hv; subst hv
          rw [show replace 'ཹ' = ['ླ', '\u0f81'] by decide +kernel]; exact Like.block .vocalicL
        · have : docRowN '\u2126'.toNat = some [0x3a9] := by decide +kernel
          rw [this] at hv; injection hv with hv; subst hv
          rw [show replace '\u2126' = ['\u2126'] by decide +kernel]; exact Like.block .ohm
        · have : docRowN '\u212a'.toNat = some [0x4b] := by decide +kernel
          rw [this] at hv; injection hv with hv; subst hv
          rw [show replace '\u212a' = ['\u212a'] by decide +kernel]; exact Like.block .kelvin
        · have : docRowN '\u212b'.toNat = some [0xc5] := by decide +kernel
          rw [this] at hv; injection hv with hv; subst hv
          rw [show replace '\u212b' = ['\u212b'] by decide +kernel]; exact Like.block .angstrom

/-! ## The rows of a text without escapes -/

theorem tokens_like : ∀ (n : Nat) (s : List Char), s.length ≤ n → ESC ∉ s → 'ﬃ' ∉ s →
    Like ((tokens finCan (single false false) s).flatMap Tok.out) (Doc.rows s) := by
  intro n
  induction n with
  | zero =>
    intro s hs _ _
    have : s = [] := List.length_eq_zero_iff.1 (by omega)
    subst this
    unfold Doc.rows
    rw [tokens, tokens]; exact .nil
  | succ n ih =>
    intro s hs he hf
    cases s with
    | nil => unfold Doc.rows; rw [tokens, tokens]; exact .nil
    | cons c r =>
      simp only [List.length_cons] at hs
      have sub : ∀ r' : List Char, r' <:+ r → Like ((tokens finCan (single false false) r').flatMap Tok.out) (Doc.rows r') := by
        intro r' hr
        exact ih r' (by have := hr.length_le; omega) (fun h => he (by simp [hr.subset h])) (fun h => hf (by simp [hr.subset h]))
      have nlk : Like ['\n'] ['\n'] := Like.refl (by decide +kernel)
      have spk : Like [' '] [' '] := Like.refl (by decide +kernel)
      unfold Doc.rows at sub ⊢
      rw [tokens, tokens]
      split
      · simp only [List.flatMap_cons]; exact nlk.append (sub r (List.suffix_refl _))
      split
      · simp only [List.flatMap_cons]
        refine nlk.append (sub _ ?_)
        unfold dropOne
        split
        · split
          · exact ⟨[_], rfl⟩
          · exact List.suffix_refl _
        · exact List.suffix_refl _
      split
      · simp only
        have hsuf := List.dropWhile_suffix (l := r) (fun x => decide (x = FF))
        split
        · exact sub _ hsuf
        · simp only [List.flatMap_cons]; exact spk.append (sub _ hsuf)
      split
      · rename_i hc; exact absurd (by simp [hc]) he
      · rename_i h1 h2 h3 h4
        simp only [List.flatMap_cons]
        refine Like.append ?_ (sub r (List.suffix_refl _))
        have : (single false false c).out = replace c := by simp [single, Tok.out]
        rw [this]
        exact like_row h2 h3 h4 (fun e => hf (by simp [e]))

/-- The two scalars that may not start a text but whose replacement may. -/
def inherent (c : Char) : Prop := c = '឴' ∨ c = '឵'

/-- `isEnd` on code points. -/
def endN (n : Nat) : Bool :=
  !Nat.beq n 0x200d && !inRanges consonantPrecedingRepha n && !inRanges consonantPrefixed n && !inRanges prependedConcatenationMark n

theorem multi_start : replaceMulti.all (fun r => (match r.2 with | d :: _ => (startN d == startN r.1) | [] => false) &&
    (match r.2.getLast? with | some d => (endN d == endN r.1) | none => false)) = true := by decide +kernel

theorem repl_start : replaceRepl.all (fun r => rangeAll (fun n => (Nat.beq n 0x17b4 || Nat.beq n 0x17b5 || startN n) && endN n) r.1 (r.2 + 1 - r.1)) = true := by
  decide +kernel

theorem replace_ends {c : Char} (hi : ¬ inherent c) : ∃ d e r r', replace c = d :: r ∧ replace c = r' ++ [e] ∧ isStart ucd15 d = isStart ucd15 c ∧
    isEnd e = isEnd c := by
  unfold replace
  cases hl : replaceMulti.lookup c.toNat with
  | some v =>
    have hm := lookup_mem hl
    have h1 := List.all_eq_true.1 multi_start _ hm
    have h2 := List.all_eq_true.1 multi_ok _ hm
    simp only [Bool.and_eq_true, List.all_eq_true] at h1 h2
    obtain ⟨h1a, h1b⟩ := h1
    cases v with
    | nil => simp at h1a
    | cons d r =>
      rcases List.eq_nil_or_concat (d :: r) with h | ⟨r', e, he⟩
      · simp at h
      rw [List.concat_eq_append] at he
      have hlast : (d :: r).getLast? = some e := by rw [he]; simp
      rw [hlast] at h1b
      refine ⟨Char.ofNat d, Char.ofNat e, r.map Char.ofNat, r'.map Char.ofNat, rfl, by simp only; rw [he]; simp, ?_, ?_⟩
      · rw [isStart15, isStart15, toNat_ofNat (h2.1.1 d (by simp)).2]
        simpa using h1a
      · have : endN (Char.ofNat e).toNat = endN c.toNat := by
          rw [toNat_ofNat (h2.1.1 e (by rw [he]; simp)).2]
          simpa using h1b
        exact this
  | none =>
    simp only
    split
    · rename_i hr
      obtain ⟨r, hr, h1, h2⟩ := inRanges_iff.1 hr
      have := rangeAll_mem (List.all_eq_true.1 repl_start r hr) h1 (by omega)
      simp only [Bool.and_eq_true, Bool.or_eq_true, beq_iff] at this
      refine ⟨REPL, REPL, [], [], rfl, rfl, ?_, ?_⟩
      · have hs : isStart ucd15 c = true := by
          rw [isStart15]
          rcases this.1 with (h | h) | h
          · exact absurd (Or.inl (Char.toNat_inj.1 h)) hi
          · exact absurd (Or.inr (Char.toNat_inj.1 h)) hi
          · exact h
        rw [hs]; decide +kernel
      · have : isEnd c = true := this.2
        rw [this]; decide +kernel
    · exact ⟨c, c, [], [], rfl, rfl, rfl, rfl⟩

/-- The end rule does not depend on the exception. -/
theorem replace_last (c : Char) : ∃ e r, replace c = r ++ [e] ∧ isEnd e = isEnd c := by
  by_cases hi : inherent c
  · rcases hi with rfl | rfl <;> exact ⟨REPL, [], by decide +kernel, by decide +kernel⟩
  · obtain ⟨d, e, r, r', -, h2, -, h4⟩ := replace_ends hi
    exact ⟨e, r', h2, h4⟩

/-- What the code's rows make of a text. -/
abbrev codeRows (s : List Char) : List Char := (tokens finCan (single false false) s).flatMap Tok.out

theorem codeRows_one {c : Char} {r : List Char} (h1 : c ≠ '\n') (h2 : c ≠ '\r') (h3 : c ≠ FF) (h4 : c ≠ ESC) :
    codeRows (c :: r) = replace c ++ codeRows r := by
  unfold codeRows
  rw [tokens_one h1 h2 h3 h4, List.flatMap_cons]
  simp [single, Tok.out]

theorem codeRows_head {c : Char} {r : List Char} (hc : c ≠ ESC) (hi : ¬ inherent c) :
    ∃ h t, codeRows (c :: r) = h :: t ∧ isStart ucd15 h = isStart ucd15 c := by
  by_cases h1 : c = '\n'
  · subst h1
    exact ⟨'\n', codeRows r, by unfold codeRows; rw [tokens_nl]; rfl, rfl⟩
  by_cases h2 : c = '\r'
  · subst h2
    refine ⟨'\n', codeRows (dropOne (· = '\n') r), ?_, by decide +kernel⟩
    unfold codeRows; rw [tokens, if_neg (by decide), if_pos rfl]; rfl
  by_cases h3 : c = FF
  · subst h3
    have hst : isStart ucd15 '\n' = isStart ucd15 FF ∧ isStart ucd15 ' ' = isStart ucd15 FF := by decide +kernel
    unfold codeRows
    rw [tokens, if_neg (by decide), if_neg (by decide), if_pos rfl]
    simp only
    split
    · rename_i hd
      cases hr : r.dropWhile (fun x => decide (x = FF)) with
      | nil => rw [hr] at hd; simp at hd
      | cons x r' =>
        rw [hr] at hd
        simp only [List.head?_cons, Option.some.injEq] at hd
        rcases hd with rfl | rfl
        · rw [tokens_nl]; exact ⟨'\n', _, rfl, hst.1⟩
        · rw [tokens, if_neg (by decide), if_pos rfl]; exact ⟨'\n', _, rfl, hst.1⟩
    · exact ⟨' ', _, rfl, hst.2⟩
  · rw [codeRows_one h1 h2 h3 hc]
    obtain ⟨d, e, t, t', e1, -, e2, -⟩ := replace_ends hi
    exact ⟨d, t ++ codeRows r, by rw [e1]; rfl, e2⟩

theorem getLast?_append_ne {a b : List Char} (h : b ≠ []) : (a ++ b).getLast? = b.getLast? := by
  rw [List.getLast?_append]
  cases hq : b.getLast? with
  | none => rw [List.getLast?_eq_none_iff] at hq; exact absurd hq h
  | some x => rfl

theorem suffix_last {a b : List Char} (h : a <:+ b) (hn : a ≠ []) : b.getLast? = a.getLast? := by
  obtain ⟨t, rfl⟩ := h
  exact getLast?_append_ne hn

theorem dropWhile_nil {r : List Char} {x : Char} (h : r.dropWhile (fun y => decide (y = x)) = []) : ∀ y ∈ r, y = x := by
  induction r with
  | nil => simp
  | cons z r ih =>
    rw [List.dropWhile_cons] at h
    split at h
    · rename_i hz
      intro y hy
      rcases List.mem_cons.1 hy with rfl | hy
      · simpa using hz
      · exact ih h y hy
    · simp at h

theorem codeRows_last : ∀ (n : Nat) (s : List Char), s.length ≤ n → ESC ∉ s → s ≠ [] →
    ∃ e c, (codeRows s).getLast? = some e ∧ s.getLast? = some c ∧ isEnd e = isEnd c := by
  intro n
  induction n with
  | zero =>
    intro s hs _ h
    exact absurd (List.length_eq_zero_iff.1 (by omega)) h
  | succ n ih =>
    intro s hs he hn
    cases s with
    | nil => exact absurd rfl hn
    | cons c r =>
      simp only [List.length_cons] at hs
      have sub : ∀ (x r' : List Char), r' <:+ r → r' ≠ [] →
          ∃ e d, (x ++ codeRows r').getLast? = some e ∧ (c :: r).getLast? = some d ∧ isEnd e = isEnd d := by
        intro x r' hr hne
        obtain ⟨e, d, k1, k2, k3⟩ := ih r' (by have := hr.length_le; omega) (fun h => he (by simp [hr.subset h])) hne
        refine ⟨e, d, ?_, ?_, k3⟩
        · rw [getLast?_append_ne (by intro h; rw [h] at k1; simp at k1), k1]
        · rw [suffix_last (b := c :: r) (hr.trans ⟨[c], rfl⟩) hne, k2]
      have hce : c ≠ ESC := fun e => he (by simp [e])
      by_cases h1 : c = '\n'
      · subst h1
        have e : codeRows ('\n' :: r) = ['\n'] ++ codeRows r := by unfold codeRows; rw [tokens_nl]; rfl
        rw [e]
        by_cases hr : r = []
        · subst hr
          exact ⟨'\n', '\n', by unfold codeRows; rw [tokens]; rfl, rfl, rfl⟩
        · exact sub ['\n'] r (List.suffix_refl _) hr
      by_cases h2 : c = '\r'
      · subst h2
        have e : codeRows ('\r' :: r) = ['\n'] ++ codeRows (dropOne (· = '\n') r) := by
          unfold codeRows; rw [tokens, if_neg (by decide), if_pos rfl]; rfl
        rw [e]
        have hsuf : dropOne (· = '\n') r <:+ r := by
          unfold dropOne
          split
          · split
            · exact ⟨[_], rfl⟩
            · exact List.suffix_refl _
          · exact List.suffix_refl _
        by_cases hr : dropOne (· = '\n') r = []
        · rw [hr]
          have : r = [] ∨ r = ['\n'] := by
            cases r with
            | nil => exact Or.inl rfl
            | cons x r =>
              simp only [dropOne] at hr
              split at hr
              · rename_i hx; simp at hx; right; rw [hx, hr]
              · simp at hr
          rcases this with rfl | rfl
          · exact ⟨'\n', '\r', by unfold codeRows; rw [tokens]; rfl, rfl, by decide +kernel⟩
          · exact ⟨'\n', '\n', by unfold codeRows; rw [tokens]; rfl, rfl, rfl⟩
        · exact sub ['\n'] _ hsuf hr
      by_cases h3 : c = FF
      · subst h3
        have hsuf := List.dropWhile_suffix (l := r) (fun x => decide (x = FF))
        have e : ∃ x, codeRows (FF :: r) = x ++ codeRows (r.dropWhile (fun x => decide (x = FF))) ∧
            (r.dropWhile (fun x => decide (x = FF)) = [] → x = [' ']) := by
          unfold codeRows
          rw [tokens, if_neg (by decide), if_neg (by decide), if_pos rfl]
          simp only
          split
          · rename_i hd
            exact ⟨[], rfl, fun h0 => by rw [h0] at hd; simp at hd⟩
          · exact ⟨[' '], rfl, fun _ => rfl⟩
        obtain ⟨x, e, ex⟩ := e
        rw [e]
        by_cases hr : r.dropWhile (fun x => decide (x = FF)) = []
        · rw [hr, ex hr]
          have hall : ∀ y ∈ r, y = FF := by
            intro y hy
            exact dropWhile_nil hr y hy
          have hlast : (FF :: r).getLast? = some FF := by
            rcases List.eq_nil_or_concat r with rfl | ⟨q, y, rfl⟩
            · rfl
            · rw [List.concat_eq_append] at hall ⊢
              have := hall y (by simp)
              subst this
              rw [← List.cons_append, List.getLast?_append]; rfl
          exact ⟨' ', FF, by unfold codeRows; rw [tokens]; rfl, hlast, by decide +kernel⟩
        · exact sub x _ hsuf hr
      · rw [codeRows_one h1 h2 h3 hce]
        by_cases hr : r = []
        · subst hr
          obtain ⟨e, t, e1, e2⟩ := replace_last c
          refine ⟨e, c, ?_, rfl, e2⟩
          unfold codeRows
          rw [e1, tokens]; simp
        · exact sub (replace c) r (List.suffix_refl _) hr

/-! ## The texts before isolation -/

theorem rows_cgj (s : List Char) : Doc.rows (CGJ :: s) = CGJ :: Doc.rows s := by
  unfold Doc.rows
  rw [tokens_one (by decide) (by decide) (by decide) (by decide), List.flatMap_cons]
  have : (Doc.row CGJ).out = [CGJ] := by
    unfold Doc.row Tok.out
    rw [show docRow CGJ = none by decide +kernel]; rfl
  rw [this]; rfl

theorem rows_append {a b : List Char} (h : Plain a) : Doc.rows (a ++ b) = Doc.rows a ++ Doc.rows b := by
  unfold Doc.rows
  rw [tokens_append _ _ _ (Nat.le_refl _) h, List.flatMap_append]

theorem modes_off (s : List Char) : s.map (Doc.modes false false) = s := by
  have : Doc.modes false false = id := by funext c; simp [Doc.modes]
  rw [this]; simp

theorem nonEnder_plain {s : List Char} {c : Char} (h : s.getLast? = some c) (hc : NonEnder c) (he : ESC ∉ s) : Plain s := by
  refine ⟨he, fun h' => ?_, fun h' => ?_⟩ <;>
  · rw [h] at h'; injection h' with h'; subst h'
    revert hc; decide +kernel

theorem code_guardStart {c : Char} {r : List Char} (hc : c ≠ ESC) (hi : ¬ inherent c) :
    Spec.guardStart ucd15 (codeRows (c :: r)) = (if NonStarter c then [CGJ] else []) ++ codeRows (c :: r) := by
  obtain ⟨h, t, e1, e2⟩ := codeRows_head (r := r) hc hi
  rw [e1]
  unfold Spec.guardStart
  simp only [e2]
  by_cases hn : NonStarter c
  · rw [if_pos hn, nonStarter_iff.1 hn]; rfl
  · rw [if_neg hn]
    rw [nonStarter_iff] at hn
    simp only [Bool.not_eq_false] at hn
    rw [hn]; rfl

theorem doc_guardStart {c : Char} {r : List Char} : Doc.guardStart (c :: r) = (if NonStarter c then [CGJ] else []) ++ c :: r := by
  simp only [Doc.guardStart]
  split <;> rfl

theorem code_guardEnd {x : List Char} {e d : Char} (hx : x.getLast? = some e) (hed : isEnd e = isEnd d) (h1 : d ≠ '࢐') (h2 : d ≠ '࢑') :
    Spec.guardEnd x = x ++ (if NonEnder d then [CGJ] else []) := by
  unfold Spec.guardEnd
  rw [hx]
  simp only [hed]
  have h := c56_end_partial d h1 h2
  by_cases hn : NonEnder d
  · rw [if_pos hn, h.2 hn]; rfl
  · rw [if_neg hn]
    have : isEnd d = true := by
      cases hd : isEnd d with
      | true => rfl
      | false => exact absurd (h.1 hd) hn
    rw [this]; simp

theorem doc_guardEnd {x : List Char} {d : Char} (hx : x.getLast? = some d) : Doc.guardEnd x = x ++ (if NonEnder d then [CGJ] else []) := by
  unfold Doc.guardEnd
  rw [hx]
  simp only
  split <;> simp

/-- The text before isolation, for strings. -/
theorem like_string {s : List Char} (he : ESC ∉ s) (hf : 'ﬃ' ∉ s) (hi : ∀ c ∈ s.head?, ¬ inherent c)
    (h1 : s.getLast? ≠ some '࢐') (h2 : s.getLast? ≠ some '࢑') :
    Like (Spec.guardEnd (Spec.guardStart ucd15 (codeRows s))) (Doc.text false false s) := by
  unfold Doc.text
  rw [modes_off]
  have hl := tokens_like _ s (Nat.le_refl _) he hf
  cases s with
  | nil =>
    have h1 : codeRows [] = [] := by unfold codeRows; rw [tokens]; rfl
    have h2 : Doc.rows [] = [] := by unfold Doc.rows; rw [tokens]; rfl
    show Like (Spec.guardEnd (Spec.guardStart ucd15 (codeRows []))) (Doc.rows [])
    rw [h1, h2]; exact .nil
  | cons c r =>
    obtain ⟨e, d, k1, k2, k3⟩ := codeRows_last _ (c :: r) (Nat.le_refl _) he (by simp)
    have hcg : Like [CGJ] [CGJ] := Like.refl (by decide +kernel)
    have hne : codeRows (c :: r) ≠ [] := by intro h; rw [h] at k1; simp at k1
    rw [code_guardStart (fun e => he (by simp [e])) (hi c rfl), doc_guardStart]
    rw [code_guardEnd (d := d) (by rw [getLast?_append_ne hne]; exact k1) k3 (fun e => h1 (e ▸ k2)) (fun e => h2 (e ▸ k2))]
    rw [doc_guardEnd (d := d) (by rw [getLast?_append_ne (by simp)]; exact k2)]
    have hpre : ∀ z, Doc.rows ((if NonStarter c then [CGJ] else []) ++ z) = (if NonStarter c then [CGJ] else []) ++ Doc.rows z := by
      intro z
      split
      · exact rows_cgj z
      · rfl
    have hpost : Doc.rows (c :: r ++ (if NonEnder d then [CGJ] else [])) = Doc.rows (c :: r) ++ (if NonEnder d then [CGJ] else []) := by
      split
      · rename_i hd
        rw [rows_append (nonEnder_plain k2 hd he)]
        have : Doc.rows [CGJ] = [CGJ] := by rw [rows_cgj]; unfold Doc.rows; rw [tokens]; rfl
        rw [this]
      · simp
    rw [List.append_assoc, List.append_assoc, hpre, hpost]
    refine Like.append ?_ (hl.append ?_)
    · split
      · exact hcg
      · exact .nil
    · split
      · exact hcg
      · exact .nil

/-- The same for streams. -/
theorem like_stream {s : List Char} (he : ESC ∉ s) (hf : 'ﬃ' ∉ s) (hi : ∀ c ∈ s.head?, ¬ inherent c) (hff : s.getLast? ≠ some FF)
    (hend : ∀ c ∈ s.getLast?, ¬ NonEnder c) :
    Like (translate ucd15 false false s) (Doc.text false false (Doc.addNewline s)) := by
  have h1 : s.getLast? ≠ some '࢐' := fun h => hend _ h (by decide +kernel)
  have h2 : s.getLast? ≠ some '࢑' := fun h => hend _ h (by decide +kernel)
  unfold translate Doc.addNewline
  simp only
  by_cases hs : s = []
  · subst hs
    rw [if_pos (Or.inl (by rw [tokens])), if_pos (Or.inl rfl)]
    exact like_string he hf hi h1 h2
  by_cases hnl : s.getLast? = some '\n' ∨ s.getLast? = some '\r'
  · rw [if_pos (Or.inr (tokens_ends_nl _ s (Nat.le_refl _) he hnl)), if_pos (Or.inr hnl)]
    exact like_string he hf hi h1 h2
  · have hp : Plain s := ⟨he, fun h => hnl (Or.inr h), hff⟩
    rw [if_neg, if_neg]
    · cases s with
      | nil => exact absurd rfl hs
      | cons c r =>
        obtain ⟨e, d, k1, k2, k3⟩ := codeRows_last _ (c :: r) (Nat.le_refl _) he (by simp)
        have hcg : Like [CGJ] [CGJ] := Like.refl (by decide +kernel)
        have hne : codeRows (c :: r) ≠ [] := by intro h; rw [h] at k1; simp at k1
        unfold Doc.text
        rw [modes_off]
        rw [show List.flatMap Tok.out (tokens finCan (single false false) (c :: r)) = codeRows (c :: r) from rfl]
        rw [code_guardStart (fun e => he (by simp [e])) (hi c rfl), List.cons_append, doc_guardStart]
        rw [code_guardEnd (d := d) (by rw [getLast?_append_ne hne]; exact k1) k3 (fun e => h1 (e ▸ k2)) (fun e => h2 (e ▸ k2)),
          if_neg (hend d k2), List.append_nil]
        rw [doc_guardEnd (d := '\n') (by rw [← List.cons_append, ← List.append_assoc, List.getLast?_append]; rfl), if_neg (show ¬ NonEnder '\n' by decide +kernel), List.append_nil]
        have hpre : ∀ z, Doc.rows ((if NonStarter c then [CGJ] else []) ++ z) = (if NonStarter c then [CGJ] else []) ++ Doc.rows z := by
          intro z
          split
          · exact rows_cgj z
          · rfl
        rw [hpre, ← List.cons_append, rows_append hp, List.append_assoc]
        have hnlr : Doc.rows ['\n'] = ['\n'] := by unfold Doc.rows; rw [tokens_nl, tokens]; rfl
        rw [hnlr]
        refine Like.append ?_ ((tokens_like _ _ (Nat.le_refl _) he hf).append (Like.refl (by decide +kernel)))
        split
        · exact hcg
        · exact .nil
    · rintro (h | h)
      · exact hs h
      · exact hnl h
    · rintro (h | h)
      · exact tokens_ne_nil _ s (Nat.le_refl _) hs h
      · exact hnl (tokens_nl_last _ s (Nat.le_refl _) h)

/-- The code's string conversion is the document's. -/
theorem string_doc {s : List Char} (hb : s.head? ≠ some BOM) (he : ESC ∉ s) (hf : 'ﬃ' ∉ s) (hi : ∀ c ∈ s.head?, ¬ inherent c)
    (h1 : s.getLast? ≠ some '࢐') (h2 : s.getLast? ≠ some '࢑') : Spec.string ucd15 s = Doc.string false false s := by
  have e : Spec.string ucd15 s = string0 ucd15 s := by
    unfold Spec.string
    split
    · rename_i c r
      rw [if_neg]
      rintro rfl
      exact hb rfl
    · rfl
  rw [e]
  unfold string0 Doc.string
  exact like_normalize (like_string he hf hi h1 h2)

/-- The code's stream conversion is the document's. -/
theorem stream_doc {s : List Char} (he : ESC ∉ s) (hf : 'ﬃ' ∉ s) (hi : ∀ c ∈ (dropBom s).head?, ¬ inherent c) (hff : (dropBom s).getLast? ≠ some FF)
    (hend : ∀ c ∈ (dropBom s).getLast?, ¬ NonEnder c) : Spec.stream ucd15 false false s = Doc.stream false false s := by
  unfold Spec.stream Doc.stream Doc.string
  exact like_normalize (like_stream (fun h => he (mem_dropOne h)) (fun h => hf (mem_dropOne h)) hi hff hend)

end Verif
