import Verif.Color
import Verif.Props.CutAdds
import Verif.Props.Everyday
import Verif.Props.Join

/-!
# Color (C117)
-/

namespace Verif
open Ucd Spec Tables

namespace Spec

/-- A text with color sequences in it: `x`, and then each sequence with the text that follows it. -/
def withColors (x : List Char) (l : List (List Char × List Char)) : List Char := x ++ l.flatMap fun p => p.1 ++ p.2

/-- What the last `m` of a color sequence and the text after it are in normalized form. -/
def afterM (y : List Char) : List Char := normChain ucd15 ('m' :: y)

end Spec

/-! ## Writing -/

theorem compose_results : composeTree.all (fun _ r => Nat.ble 0x80 r) = true := by decide +kernel

theorem compose_big {k b r : Char} (h : ucd15.compose k b = some r) : 0x80 ≤ r.toNat := by
  have hb := validN_lt (validN_toNat b)
  rcases composeN_cases (by omega) (compose_toNat h) with ⟨-, -, h⟩ | ⟨h1, -, h2, h⟩ | ⟨hf, -⟩
  · omega
  · simp only [isSyl, Bool.and_eq_true, Nat.ble_eq] at h1
    omega
  · simpa using Tree.find_all compose_results hf

/-- The first scalar of what `m` and a text become is `m` or none of ASCII. -/
theorem afterM_head (y : List Char) : ∀ c ∈ (afterM y).head?, c = 'm' ∨ 0x80 ≤ c.toNat := by
  have hd : ucd15.decomp 'm' = ['m'] := by decide +kernel
  refine head_norm_of (P := fun c => c = 'm') (Q := fun c => c = 'm' ∨ 0x80 ≤ c.toNat) textLaws15 ?_ (fun _ => rfl) ?_ ?_ ?_ ?_
  · intro h; exact absurd h (by decide +kernel)
  · rintro c d ds rfl h
    have : ucd15.cjk 'm' = ['m'] := by decide +kernel
    rw [this] at h; injection h with h _; exact h.symm
  · rintro c d ds rfl h
    rw [hd] at h; injection h with h _; exact Or.inl h.symm
  · intro k b r h _; exact Or.inr (compose_big h)
  · rintro c d ds rfl h hc
    rw [hd] at h; injection h with h _
    rw [← h] at hc
    exact absurd (by decide +kernel) hc

theorem afterM_ne (y : List Char) : afterM y ≠ [] := normChain_ne_nil textLaws15 (by simp)

theorem putAll_params {rej : Bool} {ps : List Char} (h : ∀ p ∈ ps, isCode p = true) (z : List Char) : ∀ {w : Writer}, w.state = .csi →
    putAll rej w (ps ++ z) = putAll rej { w with seq := w.seq ++ ps } z := by
  induction ps with
  | nil => intro w _; simp
  | cons p ps ih =>
    intro w hw
    have hp : between 0x20 0x3f p = true := by
      have := h p (by simp)
      simp only [isCode, between, Bool.or_eq_true, Bool.and_eq_true, decide_eq_true_eq] at this ⊢
      rcases this with h | rfl
      · omega
      · decide
    rw [List.cons_append, putAll]
    have : putChar rej w p = ({ w with seq := w.seq ++ [p] }, .ok) := by unfold putChar; simp [hw, hp]
    rw [this]
    simp only
    rw [ih (fun q hq => h q (by simp [hq])) (by exact hw)]
    simp

theorem putAll_open {rej : Bool} {ps : List Char} (h : ∀ p ∈ ps, isCode p = true) (z : List Char) {w : Writer} {g : Ground} (hg : w.state = .ground g)
    (ha : w.ansi = true) : putAll rej w ((ESC :: '[' :: ps) ++ z) = putAll rej { w with state := .csi, seq := ESC :: '[' :: ps } z := by
  rw [List.cons_append, putAll]
  have h1 : putChar rej w ESC = ({ w with state := .esc, seq := [ESC] }, .ok) := by unfold putChar; simp [hg, ha]
  rw [h1]
  simp only [List.cons_append]
  rw [putAll]
  have h2 : putChar rej { w with state := .esc, seq := [ESC] } '[' = ({ w with state := .csi, seq := [ESC, '['] }, .ok) := by unfold putChar; simp
  rw [h2]
  simp only
  rw [putAll_params h z rfl]
  simp

theorem putAll_join {rej : Bool} {a b : List Char} : ∀ {w : Writer}, putAll rej w (a ++ b) =
    match putAll rej w a with
    | (w', .ok) => putAll rej w' b
    | r => r := by
  induction a with
  | nil => intro w; rfl
  | cons c a ih =>
    intro w
    rw [List.cons_append, putAll, putAll]
    split
    · exact ih
    · rename_i h
      generalize hp : putChar rej w c = p at h ⊢
      obtain ⟨w', o⟩ := p
      cases o with
      | ok => exact absurd rfl (h w')
      | err => rfl
      | panic => rfl

/-- The ground state after a text with color sequences. -/
def groundColors (g : Ground) : List (List Char × List Char) → Ground
  | [] => g
  | p :: l => groundColors (groundFrom .other (afterM p.2).tail) l

theorem putAll_colors {rej : Bool} : ∀ {l : List (List Char × List Char)} {w : Writer} {g : Ground}, w.state = .ground g → w.ansi = true →
    (∀ p ∈ l, DocColor p.1 ∧ ∀ c ∈ p.2, okChar c = true) →
    ((putAll rej w (l.flatMap fun p => p.1.dropLast ++ afterM p.2)).2 = .ok ↔ ∀ p ∈ l, (afterM p.2).head? = some 'm') ∧
    ((∀ p ∈ l, (afterM p.2).head? = some 'm') → ∃ q, putAll rej w (l.flatMap fun p => p.1.dropLast ++ afterM p.2) =
      ({ w with buffer := w.buffer ++ l.flatMap (fun p => p.1.dropLast ++ afterM p.2), state := .ground (groundColors g l), seq := q }, .ok)) := by
  intro l
  induction l with
  | nil =>
    intro w g hg ha _
    simp only [List.flatMap_nil, putAll, true_iff]
    exact ⟨by simp, fun _ => ⟨w.seq, by simp [groundColors, ← hg]⟩⟩
  | cons p l ih =>
    intro w g hg ha hl
    obtain ⟨h1, h2⟩ := hl p (by simp)
    obtain ⟨ps, he, hps⟩ := docColor_shape h1
    have hd : p.1.dropLast = ESC :: '[' :: ps := by rw [he]; exact List.dropLast_concat
    have hok : ∀ c ∈ afterM p.2, okChar c = true := ok_normChain textLaws15 (by
      intro c hc
      rcases List.mem_cons.1 hc with rfl | hc
      · exact Or.inl (by decide +kernel)
      · exact Or.inl (h2 c hc))
    obtain ⟨c, r, hr⟩ : ∃ c r, afterM p.2 = c :: r := List.exists_cons_of_ne_nil (afterM_ne _)
    rw [hr] at hok
    simp only [List.flatMap_cons, hd, hr, List.append_assoc]
    rw [putAll_open hps _ hg ha, List.cons_append, putAll]
    have hc := afterM_head p.2 c (by simp [hr])
    by_cases hm : c = 'm'
    · subst hm
      have hput : putChar rej { w with state := .csi, seq := ESC :: '[' :: ps } 'm' =
          ({ w with state := .ground .other, seq := ESC :: '[' :: ps ++ ['m'], buffer := w.buffer ++ (ESC :: '[' :: ps) ++ ['m'] }, .ok) := by
        unfold putChar
        simp [between]
      rw [hput]
      simp only
      rw [putAll_join, putAll_plain rfl (fun c hc => hok c (by simp [hc]))]
      simp only
      have := ih (w := { w with state := .ground (groundFrom .other r), seq := ESC :: '[' :: ps ++ ['m'], buffer := w.buffer ++ (ESC :: '[' :: ps) ++ ['m'] ++ r })
        rfl ha (fun q hq => hl q (by simp [hq]))
      refine ⟨this.1.trans (by simp [hr]), fun h => ?_⟩
      obtain ⟨q, hq⟩ := this.2 (fun p hp => h p (by simp [hp]))
      refine ⟨q, ?_⟩
      rw [hq]
      simp [groundColors, hr]
    · have hbig : 0x80 ≤ c.toNat := hc.resolve_left hm
      have hput : putChar rej { w with state := .csi, seq := ESC :: '[' :: ps } c = (({ w with state := .csi, seq := ESC :: '[' :: ps } : Writer).fail, .err) := by
        unfold putChar
        simp only [hm, if_false]
        rw [if_neg]
        simp only [between, Bool.and_eq_true, decide_eq_true_eq]
        omega
      rw [hput]
      simp only
      constructor
      · simp [hr, hm]
      · intro h
        have := h p (by simp)
        rw [hr] at this
        simp [hm] at this

theorem normChain_withColors : ∀ {l : List (List Char × List Char)} (x : List Char), (∀ p ∈ l, DocColor p.1) →
    normChain ucd15 (withColors x l) = normChain ucd15 x ++ l.flatMap fun p => p.1.dropLast ++ afterM p.2 := by
  intro l
  induction l with
  | nil => intro x _; simp [withColors]
  | cons p l ih =>
    intro x h
    obtain ⟨ps, he, hps⟩ := docColor_shape (h p (by simp))
    have : withColors x (p :: l) = x ++ (ESC :: '[' :: ps) ++ withColors ('m' :: p.2) l := by simp [withColors, he]
    rw [this, normChain_color (fun p hp => isCode_part (hps p hp)), ih _ fun q hq => h q (by simp [hq])]
    have hd : p.1.dropLast = ESC :: '[' :: ps := by rw [he]; exact List.dropLast_concat
    simp [hd, afterM]

/-- C117, writing: a string with color sequences of the document in it is accepted by a color writer exactly if it may begin a stream and no `m` of a sequence is
composed with what follows it; then the sequences arrive as they are, and the texts between them in normalized form. -/
theorem c117_written_iff (k : Sink) (hd : k.dead = false) (hs : k.script = []) (x : List Char) (l : List (List Char × List Char))
    (hx : ∀ c ∈ x, okChar c = true) (hl : ∀ p ∈ l, DocColor p.1 ∧ ∀ c ∈ p.2, okChar c = true) :
    ((step ucd15 (.newAnsi true k) (.str (withColors x l))).2 = .ok ↔
      (∀ c ∈ (normChain ucd15 x).head?, isStart ucd15 c = true) ∧ ∀ p ∈ l, (afterM p.2).head? = some 'm') ∧
    ((step ucd15 (.newAnsi true k) (.str (withColors x l))).2 = .ok →
      (step ucd15 (.newAnsi true k) (.str (withColors x l))).1.sink.sent =
        k.sent ++ withColors (normChain ucd15 x) (l.map fun p => (p.1, (afterM p.2).tail))) := by
  have hchk : ∀ c ∈ withColors x l, checkChar c = none := by
    intro c hc
    simp only [withColors, List.mem_append, List.mem_flatMap] at hc
    rcases hc with hc | ⟨p, hp, hc | hc⟩
    · exact ok_check (hx c hc)
    · obtain ⟨ps, he, hps⟩ := docColor_shape (hl p hp).1
      rw [he] at hc
      simp only [List.cons_append, List.mem_cons, List.mem_append, List.not_mem_nil, or_false] at hc
      have key : ∀ c : Char, 0x20 ≤ c.toNat → c.toNat ≤ 0x7e → checkChar c = none :=
        fun c h1 h2 => ok_check ((ok_ascii (by omega)).2 (Or.inr (Or.inr ⟨h1, h2⟩)))
      rcases hc with rfl | rfl | hc | rfl
      · exact check_esc
      · exact key _ (by decide) (by decide)
      · have := hps c hc
        simp only [isCode, between, Bool.or_eq_true, Bool.and_eq_true, decide_eq_true_eq] at this
        rcases this with h | rfl
        · exact key _ (by omega) (by omega)
        · exact key _ (by decide) (by decide)
      · exact key _ (by decide) (by decide)
    · exact ok_check ((hl p hp).2 c hc)
  have hload : load ucd15 (.newAnsi true k) (.str (withColors x l)) =
      putAll false (.newAnsi true k) (normChain ucd15 x ++ l.flatMap fun p => p.1.dropLast ++ afterM p.2) := by
    rw [← normChain_withColors x fun p hp => (hl p hp).1, ← stateMachine_clean textLaws15 hchk]
    rfl
  have hw := step_write (U := ucd15) (op := .str (withColors x l)) rfl (.newAnsi true k)
  rw [hload, putAll_join, putAll_plain (g := .newline) rfl (ok_normChain textLaws15 fun c hc => Or.inl (hx c hc))] at hw
  simp only at hw
  have hp := putAll_colors (rej := false) (l := l)
    (w := { Writer.newAnsi true k with buffer := (Writer.newAnsi true k).buffer ++ normChain ucd15 x, state := .ground (groundFrom .newline (normChain ucd15 x)) })
    rfl rfl hl
  by_cases hm : ∀ p ∈ l, (afterM p.2).head? = some 'm'
  · obtain ⟨q, hq⟩ := hp.2 hm
    rw [hq] at hw
    simp only at hw
    have hflat : ∀ l : List (List Char × List Char), (∀ p ∈ l, DocColor p.1 ∧ ∀ c ∈ p.2, okChar c = true) → (∀ p ∈ l, (afterM p.2).head? = some 'm') →
        (l.flatMap fun p => p.1.dropLast ++ afterM p.2) = (l.map fun p => (p.1, (afterM p.2).tail)).flatMap fun p => p.1 ++ p.2 := by
      intro l hl hm
      induction l with
      | nil => rfl
      | cons p l ih =>
        rw [List.flatMap_cons, List.map_cons, List.flatMap_cons, ih (fun p hp => hl p (by simp [hp])) fun p hp => hm p (by simp [hp])]
        obtain ⟨ps, he, -⟩ := docColor_shape (hl p (by simp)).1
        have hd : p.1.dropLast = ESC :: '[' :: ps := by rw [he]; exact List.dropLast_concat
        have hh := hm p (by simp)
        cases ha : afterM p.2 with
        | nil => rw [ha] at hh; simp at hh
        | cons c r =>
          rw [ha] at hh
          simp at hh
          subst hh
          rw [hd, he]
          simp
    have hstart : (∀ c ∈ (normChain ucd15 x ++ l.flatMap fun p => p.1.dropLast ++ afterM p.2).head?, isStart ucd15 c = true) ↔
        ∀ c ∈ (normChain ucd15 x).head?, isStart ucd15 c = true := by
      cases hn : normChain ucd15 x with
      | cons c r => simp
      | nil =>
        simp only [List.nil_append, List.head?_nil, Option.mem_def]
        refine ⟨fun _ c h => by simp at h, fun _ => ?_⟩
        cases l with
        | nil => simp
        | cons p l =>
          obtain ⟨ps, he, -⟩ := docColor_shape (hl p (by simp)).1
          have hd : p.1.dropLast = ESC :: '[' :: ps := by rw [he]; exact List.dropLast_concat
          simp only [List.flatMap_cons, hd, List.cons_append, List.head?_cons, Option.some.injEq]
          rintro c rfl
          exact textLaws15.start_ascii _ (by decide)
    have hb : ∀ w : Writer, w.expectStarter = true → w.sink = k → ((writeBuffer ucd15 w).2 = .ok ↔ ∀ c ∈ w.buffer.head?, isStart ucd15 c = true) ∧
        ((writeBuffer ucd15 w).2 = .ok → (writeBuffer ucd15 w).1.sink.sent = k.sent ++ w.buffer) := by
      intro w h1 h2
      unfold writeBuffer
      simp only [h1, h2, Bool.true_and, Sink.writeStr, hd, hs]
      cases hb : w.buffer.head? with
      | none => simp
      | some c => cases hc : isStart ucd15 c <;> simp [hc]
    rw [hw]
    obtain ⟨b1, b2⟩ := hb { Writer.newAnsi true k with
      buffer := (Writer.newAnsi true k).buffer ++ normChain ucd15 x ++ l.flatMap (fun p => p.1.dropLast ++ afterM p.2),
      state := .ground (groundColors (groundFrom .newline (normChain ucd15 x)) l), seq := q } rfl rfl
    refine ⟨b1.trans ?_, fun h => (b2 h).trans ?_⟩
    · simp only [Writer.newAnsi, Writer.new, List.nil_append]
      rw [hstart]
      exact ⟨fun h => ⟨h, hm⟩, fun h => h.1⟩
    · simp only [Writer.newAnsi, Writer.new, List.nil_append, withColors, hflat l hl hm]
  · have hno := mt hp.1.1 hm
    generalize putAll false { Writer.newAnsi true k with buffer := (Writer.newAnsi true k).buffer ++ normChain ucd15 x, state := .ground (groundFrom .newline (normChain ucd15 x)) }
      (l.flatMap fun p => p.1.dropLast ++ afterM p.2) = r at hw hno
    obtain ⟨w', o⟩ := r
    have : (step ucd15 (.newAnsi true k) (.str (withColors x l))).2 ≠ .ok := by
      rw [hw]
      cases o with
      | ok => exact absurd rfl hno
      | err => simp
      | panic => simp
    exact ⟨⟨fun h => absurd h this, fun h => absurd h.2 hm⟩, fun h => absurd h this⟩

theorem text_afterM {y : List Char} (h1 : isBasicText ucd15 y = true) (h2 : Preceded ucd15 y) : afterM y = 'm' :: y := by
  obtain ⟨y1, -, y3⟩ := text_iff.1 h1
  refine (normChain_eq_iff textLaws15).2 ⟨?_, ?_⟩
  · have hm : isBasicTextSubstr ucd15 ['m'] = true := by decide +kernel
    have := (substr_append_iff textLaws15 hm y3 y1).2 (by
      intro x hx c hc hj
      simp at hx
      subst hx
      have := (joins_iff (y1 c hc)).1 hj
      unfold HangulJoin at this
      have e : 'm'.toNat = 109 := by decide
      rw [e] at this
      omega)
    exact (substr_iff.1 this).2
  · exact ⟨fun h => absurd h (by decide +kernel), (show ('m' == CGJ) = false by decide) ▸ preceded_iff.1 h2⟩

/-- So texts that are Basic Text, with U+34F before any unassigned scalar, may be colored at will: everything arrives as it is. -/
theorem c117_texts_written (k : Sink) (hd : k.dead = false) (hs : k.script = []) (x : List Char) (l : List (List Char × List Char))
    (hx : fromText (isBasicText ucd15) x = .ok x ∧ Preceded ucd15 x)
    (hl : ∀ p ∈ l, DocColor p.1 ∧ fromText (isBasicText ucd15) p.2 = .ok p.2 ∧ Preceded ucd15 p.2) :
    (step ucd15 (.newAnsi true k) (.str (withColors x l))).2 = .ok ∧
    (step ucd15 (.newAnsi true k) (.str (withColors x l))).1.sink.sent = k.sent ++ withColors x l := by
  have ok : ∀ {s : List Char}, fromText (isBasicText ucd15) s = .ok s → ∀ c ∈ s, okChar c = true := fun h =>
    (substr_iff.1 (text_substr (fromText_ok_iff.1 h).1)).1
  have hxn : normChain ucd15 x = x := by
    refine (normChain_eq_iff textLaws15).2 ⟨?_, preceded_iff.1 hx.2⟩
    exact (substr_iff.1 (text_substr (fromText_ok_iff.1 hx.1).1)).2
  obtain ⟨h1, h2⟩ := c117_written_iff k hd hs x l (ok hx.1) (fun p hp => ⟨(hl p hp).1, ok (hl p hp).2.1⟩)
  have ha : ∀ p ∈ l, afterM p.2 = 'm' :: p.2 := fun p hp => text_afterM (fromText_ok_iff.1 (hl p hp).2.1).1 (hl p hp).2.2
  have hok := h1.2 ⟨by rw [hxn]; exact (text_iff.1 (fromText_ok_iff.1 hx.1).1).1, fun p hp => by rw [ha p hp]; rfl⟩
  refine ⟨hok, (h2 hok).trans ?_⟩
  have : (l.map fun p => (p.1, (afterM p.2).tail)) = l := by
    conv => rhs; rw [← List.map_id l]
    apply List.map_congr_left
    intro p hp
    simp [ha p hp]
  rw [hxn, this]

/-! ## Reading -/

/-- Seen from the front: nothing, a scalar of Basic Text, or a color sequence. -/
theorem items_front {T : List Char} (h : Items false true T) : T = [] ∨ (∃ c t, T = c :: t ∧ okChar c = true ∧ Items false true t) ∨
    ∃ ps t, T = ESC :: '[' :: ps ++ 'm' :: t ∧ (∀ p ∈ ps, between 0x20 0x3f p = true) ∧ Items false true t := by
  induction h with
  | nil => exact Or.inl rfl
  | char s c hs hc ih =>
    rcases ih with rfl | ⟨d, t, rfl, h1, h2⟩ | ⟨ps, t, rfl, h1, h2⟩
    · exact Or.inr (Or.inl ⟨c, [], rfl, hc, .nil⟩)
    · exact Or.inr (Or.inl ⟨d, t ++ [c], by simp, h1, .char _ _ h2 hc⟩)
    · exact Or.inr (Or.inr ⟨ps, t ++ [c], by simp, h1, .char _ _ h2 hc⟩)
  | newline s hs hc ih => simp at hc
  | color s qs hs hc hq ih =>
    rcases ih with rfl | ⟨d, t, rfl, h1, h2⟩ | ⟨ps, t, rfl, h1, h2⟩
    · exact Or.inr (Or.inr ⟨qs, [], by simp, hq, .nil⟩)
    · exact Or.inr (Or.inl ⟨d, t ++ (ESC :: '[' :: qs ++ ['m']), by simp, h1, .color _ _ h2 rfl hq⟩)
    · exact Or.inr (Or.inr ⟨ps, t ++ (ESC :: '[' :: qs ++ ['m']), by simp, h1, .color _ _ h2 rfl hq⟩)

theorem uncolor_seq {ps : List Char} (h : ∀ p ∈ ps, between 0x20 0x3f p = true) (t : List Char) :
    uncolor (ESC :: '[' :: ps ++ 'm' :: t) = uncolor t := by
  have : ∀ ps : List Char, (∀ p ∈ ps, between 0x20 0x3f p = true) → uncolorGo true (ps ++ 'm' :: t) = uncolorGo false t := by
    intro ps
    induction ps with
    | nil => intro _; simp [uncolorGo]
    | cons p ps ih =>
      intro h
      have hp : p ≠ 'm' := by rintro rfl; exact absurd (h 'm' (by simp)) (by decide)
      simp only [List.cons_append, uncolorGo, ne_eq, hp, not_false_eq_true, decide_true]
      exact ih fun q hq => h q (by simp [hq])
  simp only [uncolor, List.cons_append, uncolorGo, if_true]
  exact this ps h

theorem uncolor_ok {c : Char} (h : okChar c = true) (t : List Char) : uncolor (c :: t) = c :: uncolor t := by
  have := (ok_not_special h).2.2.1
  simp [uncolor, uncolorGo, this]

/-- A reader takes a text that ends with a newline for what it is without its color sequences. -/
theorem form_uncolor (nel lsps : Bool) : ∀ (n : Nat) (T : List Char), T.length ≤ n → Items false true T → T.getLast? = some '\n' →
    ∀ a : List Char, (∀ c ∈ a, okChar c = true) → form ucd15 nel lsps (a ++ T) = form ucd15 nel lsps (a ++ uncolor T) := by
  intro n
  induction n with
  | zero => intro T hn _ hl; rw [List.length_eq_zero_iff.1 (by omega : T.length = 0)] at hl; simp at hl
  | succ n ih =>
    intro T hn hi hl a ha
    rcases items_front hi with rfl | ⟨c, t, rfl, h1, h2⟩ | ⟨ps, t, rfl, h1, h2⟩
    · simp at hl
    · rw [uncolor_ok h1]
      by_cases ht : t = []
      · subst ht; rfl
      · have hl' : t.getLast? = some '\n' := by
          rw [List.getLast?_cons] at hl
          cases hq : t.getLast? with
          | none => exact absurd (List.getLast?_eq_none_iff.1 hq) ht
          | some x => rw [hq] at hl; simpa using hl
        have := ih t (by simpa using hn) h2 hl' (a ++ [c]) (by
          intro d hd
          rcases List.mem_append.1 hd with h | h
          · exact ha d h
          · simp at h; subst h; exact h1)
        simpa using this
    · have hl' : t.getLast? = some '\n' := by
        cases t with
        | nil =>
          rw [List.getLast?_append] at hl
          simp at hl
        | cons d t =>
          rw [List.getLast?_append, List.getLast?_cons_cons] at hl
          cases hq : (d :: t).getLast? with
          | none => simp at hq
          | some x => rw [hq] at hl; simpa using hl
      have htn : t ≠ [] := by rintro rfl; simp at hl'
      have hpl : Plain a := ⟨fun h => (ok_not_special (ha _ h)).2.2.1 rfl,
        fun h => (ok_not_special (ha _ (List.mem_of_getLast? h))).1 rfl, fun h => (ok_not_special (ha _ (List.mem_of_getLast? h))).2.1 rfl⟩
      have hes : IsEscape (ESC :: '[' :: ps ++ ['m']) := .csi ps 'm' (by
        intro c hc
        have := h1 c hc
        simp only [between, Bool.and_eq_true, decide_eq_true_eq] at this
        simp only [param, within, decide_eq_true_eq]
        exact this) (by decide) (fun _ => by decide)
      have hbom : t.head? ≠ some BOM := by
        intro hb
        rcases items_front h2 with rfl | ⟨c, t', rfl, h3, -⟩ | ⟨qs, t', rfl, -, -⟩
        · simp at hb
        · simp only [List.head?_cons, Option.some.injEq] at hb
          exact (ok_not_special h3).2.2.2.2.2.2 hb
        · simp only [List.cons_append, List.head?_cons, Option.some.injEq] at hb
          exact absurd hb (by decide)
      have e1 := form_escape (U := ucd15) nel lsps hpl hes htn (Or.inr hbom)
      have e2 := ih t (by simp only [List.length_append, List.length_cons] at hn; omega) h2 hl' a ha
      rw [uncolor_seq h1, ← e2, ← e1]
      simp

theorem uncolor_last : ∀ (n : Nat) (T : List Char), T.length ≤ n → Items false true T → T.getLast? = some '\n' → (uncolor T).getLast? = some '\n' := by
  intro n
  induction n with
  | zero => intro T hn _ hl; rw [List.length_eq_zero_iff.1 (by omega : T.length = 0)] at hl; simp at hl
  | succ n ih =>
    intro T hn hi hl
    rcases items_front hi with rfl | ⟨c, t, rfl, h1, h2⟩ | ⟨ps, t, rfl, h1, h2⟩
    · simp at hl
    · rw [uncolor_ok h1]
      by_cases ht : t = []
      · subst ht; exact hl
      · have hl' : t.getLast? = some '\n' := by
          rw [List.getLast?_cons] at hl
          cases hq : t.getLast? with
          | none => exact absurd (List.getLast?_eq_none_iff.1 hq) ht
          | some x => rw [hq] at hl; simpa using hl
        have := ih t (by simpa using hn) h2 hl'
        rw [List.getLast?_cons, this]
        rfl
    · rw [uncolor_seq h1]
      refine ih t (by simp only [List.length_append, List.length_cons] at hn; omega) h2 ?_
      cases t with
      | nil =>
        rw [List.getLast?_append] at hl
        simp at hl
      | cons d t =>
        rw [List.getLast?_append, List.getLast?_cons_cons] at hl
        cases hq : (d :: t).getLast? with
        | none => simp at hq
        | some x => rw [hq] at hl; simpa using hl

/-- What a color writer has sent, if it ends with a newline, is read as what it is without the color sequences. -/
theorem sent_uncolor (k : Sink) (hk : k.sent = []) (hs : k.script = []) (ops : List Op) (ho : ∀ op ∈ ops, op.Ok ucd15)
    (hl : (run ucd15 (.newAnsi true k) ops).sink.sent.getLast? = some '\n') (nel lsps : Bool) :
    form ucd15 nel lsps (run ucd15 (.newAnsi true k) ops).sink.sent = form ucd15 nel lsps (uncolor (run ucd15 (.newAnsi true k) ops).sink.sent) ∧
    (run ucd15 (.newAnsi true k) ops).sink.sent.head? ≠ some BOM ∧ (uncolor (run ucd15 (.newAnsi true k) ops).sink.sent).head? ≠ some BOM ∧
    (uncolor (run ucd15 (.newAnsi true k) ops).sink.sent).getLast? = some '\n' := by
  have hf : Fresh (.newAnsi true k) := fresh_ansi true k
  obtain ⟨T, h1, h2⟩ := whole_run textLaws15 ho hf.safe hs ⟨[], by simp, .nil⟩
  have h1 : (run ucd15 (.newAnsi true k) ops).sink.sent = T := by rw [h1]; simp [Writer.newAnsi, Writer.new, hk]
  have h2 : Items false true T := h2
  rw [h1] at hl ⊢
  refine ⟨by simpa using form_uncolor nel lsps _ T (Nat.le_refl _) h2 hl [] (by simp), ?_, ?_, uncolor_last _ T (Nat.le_refl _) h2 hl⟩
  · intro hb
    rcases items_front h2 with rfl | ⟨c, t', rfl, h3, -⟩ | ⟨qs, t', rfl, -, -⟩
    · simp at hb
    · simp only [List.head?_cons, Option.some.injEq] at hb
      exact (ok_not_special h3).2.2.2.2.2.2 hb
    · simp only [List.cons_append, List.head?_cons, Option.some.injEq] at hb
      exact absurd hb (by decide)
  · have : ∀ (n : Nat) (T : List Char), T.length ≤ n → Items false true T → (uncolor T).head? ≠ some BOM := by
      intro n
      induction n with
      | zero => intro T hn _; rw [List.length_eq_zero_iff.1 (by omega : T.length = 0)]; simp [uncolor, uncolorGo]
      | succ n ih =>
        intro T hn hi
        rcases items_front hi with rfl | ⟨c, t', rfl, h3, -⟩ | ⟨qs, t', rfl, h3, h4⟩
        · simp [uncolor, uncolorGo]
        · rw [uncolor_ok h3]
          simp only [List.head?_cons, ne_eq, Option.some.injEq]
          exact (ok_not_special h3).2.2.2.2.2.2
        · rw [uncolor_seq h3]
          exact ih t' (by simp only [List.length_append, List.length_cons] at hn; omega) h4
    exact this _ T (Nat.le_refl _) h2

/-- C117, reading: what a color writer has sent is read as the same text without the color sequences, when each comes in one read. -/
theorem c117_read_alike (k : Sink) (hk : k.sent = []) (hs : k.script = []) (ops : List Op) (ho : ∀ op ∈ ops, op.Ok ucd15) (T : List Char)
    (hT : (run ucd15 (.newAnsi true k) ops).sink.sent = T) (hl : T.getLast? = some '\n') (nel lsps : Bool) (lens lens' : List Nat)
    (h : Completes ucd15 nel lsps (script [] T) lens) (h' : Completes ucd15 nel lsps (script [] (uncolor T)) lens') :
    output ucd15 nel lsps (script [] T) lens = output ucd15 nel lsps (script [] (uncolor T)) lens' := by
  subst hT
  rw [output_single textLaws15 h, output_single textLaws15 h']
  exact congrArg _ (sent_uncolor k hk hs ops ho hl nel lsps).1

/-- For all splits of both apart from U+34F. -/
theorem c117_same_scalars (k : Sink) (hk : k.sent = []) (hs : k.script = []) (ops : List Op) (ho : ∀ op ∈ ops, op.Ok ucd15) (T : List Char)
    (hT : (run ucd15 (.newAnsi true k) ops).sink.sent = T) (hl : T.getLast? = some '\n') (nel lsps : Bool)
    (chunks chunks' : List (List Char)) (last last' : List Char) (h1 : chunks.flatten ++ last = T) (h2 : chunks'.flatten ++ last' = uncolor T)
    (lens lens' : List Nat) (h : Completes ucd15 nel lsps (script chunks last) lens) (h' : Completes ucd15 nel lsps (script chunks' last') lens') :
    (output ucd15 nel lsps (script chunks last) lens).filter (· ≠ CGJ) = (output ucd15 nel lsps (script chunks' last') lens').filter (· ≠ CGJ) := by
  subst hT
  obtain ⟨e1, e2, e3, e4⟩ := sent_uncolor k hk hs ops ho hl nel lsps
  rw [c17_same_scalars nel lsps chunks last (Or.inr (by rw [h1]; exact e2)) lens h,
    c17_same_scalars nel lsps chunks' last' (Or.inr (by rw [h2]; exact e3)) lens' h', h1, h2, stream_of_form e1]

/-- Text of assigned scalars comes back without its colors, for all splits. -/
theorem c117_text_back (k : Sink) (hk : k.sent = []) (hs : k.script = []) (ops : List Op) (ho : ∀ op ∈ ops, op.Ok ucd15) (T : List Char)
    (hT : (run ucd15 (.newAnsi true k) ops).sink.sent = T) (hl : T.getLast? = some '\n')
    (hv : fromText (isBasicText ucd15) (uncolor T) = .ok (uncolor T)) (ha : ∀ c ∈ uncolor T, isAssigned ucd15 c = true) (nel lsps : Bool)
    (chunks : List (List Char)) (last : List Char) (h1 : chunks.flatten ++ last = T) (lens : List Nat)
    (h : Completes ucd15 nel lsps (script chunks last) lens) : output ucd15 nel lsps (script chunks last) lens = uncolor T := by
  subst hT
  obtain ⟨e1, e2, e3, e4⟩ := sent_uncolor k hk hs ops ho hl nel lsps
  generalize (run ucd15 (.newAnsi true k) ops).sink.sent = T at *
  have hv := (fromText_ok_iff.1 hv).1
  rw [output_stream textLaws15 (Or.inr (by rw [h1]; exact e2)) (h1 ▸ (clear_of textLaws15 (Or.inl ha)).of_form e1) h, h1, stream_of_form e1,
    stream_valid textLaws15 hv ha, if_pos (Or.inr e4)]

/-! ## What does not hold -/

theorem m_composes : composeTree.all (fun key _ => !Nat.beq (key / 0x200000) 0x6d || Nat.beq (key % 0x200000) 0x301 || Nat.beq (key % 0x200000) 0x307 ||
    Nat.beq (key % 0x200000) 0x323) = true := by decide +kernel

/-- The scalars that can be composed with the last scalar of a color sequence are U+301, U+307 and U+323. -/
theorem c117_marks (c : Char) : ucd15.compose 'm' c ≠ none ↔ c = '́' ∨ c = '̇' ∨ c = '̣' := by
  constructor
  · intro h
    obtain ⟨r, hr⟩ := Option.ne_none_iff_exists'.1 h
    have hb := validN_lt (validN_toNat c)
    have e : 'm'.toNat = 0x6d := by decide
    have hc := compose_toNat hr
    rw [e] at hc
    rcases composeN_cases (by omega) hc with ⟨hk, -⟩ | ⟨hk, -⟩ | ⟨hf, -⟩
    · omega
    · simp only [isSyl, Bool.and_eq_true, Nat.ble_eq] at hk
      omega
    · have := Tree.find_all m_composes hf
      rw [show (0x6d * 0x200000 + c.toNat) / 0x200000 = 0x6d by omega, show (0x6d * 0x200000 + c.toNat) % 0x200000 = c.toNat by omega] at this
      simp only [Bool.or_eq_true, Nat.beq_eq, show (!Nat.beq 0x6d 0x6d) = false by decide, Bool.false_eq_true, false_or] at this
      rcases this with (h | h) | h
      · exact Or.inl (Char.toNat_inj.1 h)
      · exact Or.inr (Or.inl (Char.toNat_inj.1 h))
      · exact Or.inr (Or.inr (Char.toNat_inj.1 h))
  · rintro (rfl | rfl | rfl) <;> decide +kernel

/-- C117 fails for a color sequence before one of these: the write is refused, though it is accepted without the color. -/
theorem c117_refuted_mark : DocColor [ESC, '[', '0', 'm'] ∧
    (step ucd15 (.newAnsi true goodSink) (.str (withColors ['a'] [([ESC, '[', '0', 'm'], ['́', '\n'])]))).2 = .err ∧
    (step ucd15 (.newAnsi true goodSink) (.str ['a', '́', '\n'])).2 = .ok :=
  ⟨.codes [['0']] (by decide) (by decide), by decide +kernel, by decide +kernel⟩

/-- Color sequences that the document does not have are accepted too. -/
theorem c117_refuted_other : ¬ DocColor [ESC, '[', '?', 'm'] ∧
    (step ucd15 (.newAnsi true goodSink) (.str [ESC, '[', '?', 'm', '\n'])).2 = .ok := by
  refine ⟨fun h => ?_, by decide +kernel⟩
  obtain ⟨ps, he, hp⟩ := docColor_shape h
  have : ps = ['?'] := by
    have : [ESC, '['] ++ (['?'] ++ ['m']) = [ESC, '['] ++ (ps ++ ['m']) := by simpa using he
    exact (List.append_cancel_right (List.append_cancel_left this)).symm
  rw [this] at hp
  exact absurd (hp '?' (by simp)) (by decide)

/-- A color sequence hides from the writer what may not begin a stream, and what may not end a flush: both are accepted with it and refused without it.  What is
read then has U+34F in it that nobody wrote. -/
theorem c117_refuted_hidden :
    results ucd15 (.newAnsi true goodSink) [.str [ESC, '[', 'm', '̀', '\n'], .close] = [.ok, .ok] ∧
    results ucd15 (.newAnsi true goodSink) [.str ['̀', '\n'], .close] = [.err, .err] ∧
    output ucd15 false false (script [] [ESC, '[', 'm', '̀', '\n']) [136] = ['͏', '̀', '\n'] ∧
    results ucd15 (.newAnsi true goodSink) [.str ['a', '‍', ESC, '[', 'm'], .flush] = [.ok, .ok] ∧
    results ucd15 (.newAnsi true goodSink) [.str ['a', '‍'], .flush] = [.ok, .err] := by decide +kernel

example : DocColor [ESC, '[', '1', ';', '3', '1', 'm'] ∧ DocColor [ESC, '[', '3', '8', ';', '2', ';', '2', '5', '5', ';', '0', ';', '7', 'm'] ∧
    (step ucd15 (.newAnsi true goodSink) (.str (withColors ['a'] [([ESC, '[', '1', ';', '3', '1', 'm'], ['b']), ([ESC, '[', 'm'], ['\n'])]))).1.sink.sent =
      ['a', ESC, '[', '1', ';', '3', '1', 'm', 'b', ESC, '[', 'm', '\n'] ∧
    uncolor ['a', ESC, '[', '1', ';', '3', '1', 'm', 'b', ESC, '[', 'm', '\n'] = ['a', 'b', '\n'] ∧
    output ucd15 false false (script [['a', ESC, '[']] ['1', ';', '3', '1', 'm', 'b', ESC, '[', 'm', '\n']) [136, 136] = ['a', 'b', '\n'] :=
  ⟨.codes [['1'], ['3', '1']] (by decide) (by decide),
    .rgb '3' ['2', '5', '5'] ['0'] ['7'] (Or.inl rfl) ⟨by decide, by decide, by decide⟩ ⟨by decide, by decide, by decide⟩ ⟨by decide, by decide, by decide⟩,
    by decide +kernel, by decide +kernel, by decide +kernel⟩

end Verif
