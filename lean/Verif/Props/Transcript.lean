import Verif.Tables.Terminal
import Verif.Props.Lockstep
import Verif.Props.Strings

/-!
# C125: the sequences of a terminal leave nothing in the text

`docs/Terminal.md` lists the escape sequences that programs send to terminals and terminals to programs.
-/

namespace Verif
open Ucd Spec Tables

namespace Spec

/-- What may stand for a part of a sequence (`docs/Terminal.md`): numbers are digits, possibly omitted; attributes are numbers with `;`
between them (`152-153`); the string of a title is Basic Text (`10`); modifiers are `;2` to `;8` (`311-321`). -/
def Fits : Part → List Char → Prop
  | .lit c, x => x = [c]
  | .number, x => ∀ c ∈ x, c.isDigit = true
  | .attributes, x => ∀ c ∈ x, c.isDigit = true ∨ c = ';'
  | .string, x => isBasicText ucd15 x = true
  | .modifier, x => ∃ d ∈ ['2', '3', '4', '5', '6', '7', '8'], x = [';', d]
  | .optModifier, x => x = [] ∨ ∃ d ∈ ['2', '3', '4', '5', '6', '7', '8'], x = [';', d]

/-- The sequences of a row. -/
def FitsRow : List Part → List Char → Prop
  | [], s => s = []
  | p :: ps, s => ∃ x y, s = x ++ y ∧ Fits p x ∧ FitsRow ps y

end Spec

/-! ## Rows -/

/-- Parts made of parameters. -/
def Part.quiet : Part → Bool
  | .lit c => param c
  | .string => false
  | _ => true

theorem Part.quiet_fits {p : Part} (h : Part.quiet p = true) {x : List Char} (hx : Fits p x) : ∀ c ∈ x, param c = true := by
  have hd : ∀ c : Char, c.isDigit = true → param c = true := by
    intro c hc
    simp only [Char.isDigit, Bool.and_eq_true, decide_eq_true_eq] at hc
    have h1 : 48 ≤ c.toNat := hc.1
    have h2 : c.toNat ≤ 57 := hc.2
    simp only [param, within, decide_eq_true_eq]
    omega
  have hm : ∀ d ∈ ['2', '3', '4', '5', '6', '7', '8'], x = [';', d] → ∀ c ∈ x, param c = true := by
    intro d hd e c hc
    subst e
    have : ∀ d ∈ ['2', '3', '4', '5', '6', '7', '8'], param d = true := by decide
    simp only [List.mem_cons, List.not_mem_nil, or_false] at hc
    rcases hc with hc | hc
    · rw [hc]; decide
    · rw [hc]; exact this d hd
  cases p with
  | lit d => intro c hc; rw [show x = [d] from hx] at hc; rw [List.mem_singleton.1 hc]; exact h
  | number => exact fun c hc => hd c (hx c hc)
  | attributes =>
    intro c hc
    rcases hx c hc with g | rfl
    · exact hd c g
    · decide
  | string => simp [Part.quiet] at h
  | modifier => obtain ⟨d, h1, h2⟩ := hx; exact hm d h1 h2
  | optModifier =>
    rcases hx with h0 | ⟨d, h1, h2⟩
    · subst h0; simp
    · exact hm d h1 h2

/-- Parts of a title. -/
theorem Part.title_fits {p : Part} (h : (match p with | .lit c => oscText c | .string => true | _ => false) = true) {x : List Char} (hx : Fits p x) :
    ∀ c ∈ x, oscText c = true := by
  cases p with
  | lit d => intro c hc; rw [show x = [d] from hx] at hc; rw [List.mem_singleton.1 hc]; exact h
  | string =>
    intro c hc
    have := (substr_iff.1 (text_substr hx)).1 c hc
    unfold oscText
    refine decide_eq_true ⟨?_, ?_, ?_⟩ <;> · rintro rfl; revert this; decide +kernel
  | _ => simp at h

theorem fitsRow_append {ps qs : List Part} : ∀ {s : List Char}, FitsRow (ps ++ qs) s → ∃ x y, s = x ++ y ∧ FitsRow ps x ∧ FitsRow qs y := by
  induction ps with
  | nil => intro s h; exact ⟨[], s, rfl, rfl, h⟩
  | cons p ps ih =>
    intro s h
    obtain ⟨x, y, rfl, h1, h2⟩ := h
    obtain ⟨y1, y2, rfl, h3, h4⟩ := ih h2
    exact ⟨x ++ y1, y2, by simp, ⟨x, y1, rfl, h1, h3⟩, h4⟩

theorem fitsRow_all {P : Char → Prop} {ps : List Part} (h : ∀ p ∈ ps, ∀ x, Fits p x → ∀ c ∈ x, P c) : ∀ {s : List Char}, FitsRow ps s → ∀ c ∈ s, P c := by
  induction ps with
  | nil => intro s hs; rw [show s = [] from hs]; simp
  | cons p ps ih =>
    intro s hs c hc
    obtain ⟨x, y, rfl, h1, h2⟩ := hs
    rcases List.mem_append.1 hc with g | g
    · exact h p (by simp) x h1 c g
    · exact ih (fun q hq => h q (by simp [hq])) h2 c g

/-- The forms of the rows. -/
def rowForm : List Part → Bool
  | [.lit e, .lit f] => e == ESC && final f && f != '[' && f != ']'
  | .lit e :: .lit b :: ps =>
    e == ESC && match ps.getLast? with
      | some (.lit f) => if b == '[' then final f && f != '[' && ps.dropLast.all Part.quiet
        else b == ']' && f == BEL && ps.dropLast.all fun | .lit c => oscText c | .string => true | _ => false
      | _ => false
  | _ => false

theorem rowForm_escape {row : List Part} (h : rowForm row = true) {s : List Char} (hs : FitsRow row s) : IsEscape s := by
  unfold rowForm at h
  split at h
  · rename_i e f
    obtain ⟨x, y, rfl, hx, x', y', rfl, hx', hy'⟩ := hs
    simp only [Bool.and_eq_true, beq_iff_eq, bne_iff_ne] at h
    obtain ⟨⟨⟨rfl, h2⟩, h3⟩, h4⟩ := h
    rw [show x = [ESC] from hx, show x' = [f] from hx', show y' = [] from hy']
    exact .two f h2 h3 h4
  · rename_i e b ps _
    simp only [Bool.and_eq_true, beq_iff_eq] at h
    obtain ⟨rfl, h⟩ := h
    split at h
    · rename_i f hf
      have hps : ps = ps.dropLast ++ [.lit f] := by
        obtain ⟨ys, rfl⟩ := List.getLast?_eq_some_iff.1 hf
        rw [List.dropLast_concat]
      obtain ⟨x, y, rfl, hx, x', y', rfl, hx', hy'⟩ := hs
      rw [hps] at hy'
      obtain ⟨m, l, rfl, hm, z, z', rfl, hz, hz'⟩ := fitsRow_append hy'
      rw [show x = [ESC] from hx, show x' = [b] from hx', show z = [f] from hz, show z' = [] from hz']
      split at h
      · rename_i hb
        subst hb
        simp only [Bool.and_eq_true, bne_iff_ne, List.all_eq_true] at h
        have := IsEscape.csi m f (fitsRow_all (fun p hp x hx => Part.quiet_fits (h.2 p hp) hx) hm) h.1.1 fun _ => h.1.2
        simpa using this
      · simp only [Bool.and_eq_true, beq_iff_eq, List.all_eq_true] at h
        obtain ⟨⟨rfl, rfl⟩, h3⟩ := h
        have := IsEscape.osc m BEL (fitsRow_all (fun p hp x hx => Part.title_fits (h3 p hp) hx) hm) (.inl rfl)
        simpa using this
    · simp at h
  · simp at h

/-- C125: all the sequences of the document are escape sequences for a reader, but `ESC 7` and `ESC 8`. -/
theorem c125_sequences (row : List Part) (h : row ∈ terminalRows) (h7 : row ≠ [.lit ESC, .lit '7']) (h8 : row ≠ [.lit ESC, .lit '8'])
    (s : List Char) (hs : FitsRow row s) : IsEscape s := by
  have hall : terminalRows.all (fun r => rowForm r || (r == [.lit ESC, .lit '7'] || r == [.lit ESC, .lit '8'])) = true := by decide
  have := List.all_eq_true.1 hall row h
  simp only [Bool.or_eq_true, beq_iff_eq] at this
  rcases this with g | g | g
  · exact rowForm_escape g hs
  · exact absurd g h7
  · exact absurd g h8

/-- Moving the cursor, and setting a title. -/
example : [.lit ESC, .lit '[', .number, .lit ';', .number, .lit 'H'] ∈ terminalRows ∧
    FitsRow [.lit ESC, .lit '[', .number, .lit ';', .number, .lit 'H'] (ESC :: "[12;1H".toList) ∧
    FitsRow [.lit ESC, .lit ']', .lit '0', .lit ';', .string, .lit BEL] (ESC :: "]0;né".toList ++ [BEL]) := by
  refine ⟨by decide, ?_, ?_⟩
  · exact ⟨[ESC], _, rfl, rfl, ['['], _, rfl, rfl, ['1', '2'], _, rfl, (by decide : ∀ c ∈ ['1', '2'], c.isDigit = true), [';'], _, rfl, rfl, ['1'], _, rfl, (by decide : ∀ c ∈ ['1'], c.isDigit = true), ['H'], _, rfl, rfl, rfl⟩
  · exact ⟨[ESC], _, rfl, rfl, [']'], _, rfl, rfl, ['0'], _, rfl, rfl, [';'], _, rfl, rfl, ['n', 'é'], [BEL], rfl, (by decide +kernel : isBasicText ucd15 ['n', 'é'] = true), [BEL], [], rfl, rfl, rfl⟩

/-! ## Transcripts -/

namespace Spec

/-- A text with sequences in it, the scalars of the sequences marked. -/
def transcript (a : List Char) (items : List (List Char × List Char)) : List (Char × Bool) :=
  a.map (·, false) ++ items.flatMap fun x => x.1.map (·, true) ++ x.2.map (·, false)

end Spec

theorem pieces_lift {α β : Type} {f : β → α} : ∀ (pieces : List (List α)) (last : List α) (L : List β), pieces.flatten ++ last = L.map f →
    ∃ (pieces' : List (List β)) (last' : List β), pieces'.flatten ++ last' = L ∧ pieces'.map (·.map f) = pieces ∧ last'.map f = last := by
  intro pieces
  induction pieces with
  | nil => intro last L h; exact ⟨[], L, rfl, rfl, h.symm⟩
  | cons p ps ih =>
    intro last L h
    rw [List.flatten_cons, List.append_assoc] at h
    obtain ⟨l1, l2, rfl, h1, h2⟩ := List.map_eq_append_iff.1 h.symm
    obtain ⟨ps', last', g1, g2, g3⟩ := ih last l2 h2.symm
    exact ⟨l1 :: ps', last', by rw [List.flatten_cons, List.append_assoc, g1], by rw [List.map_cons, h1, g2], g3⟩

theorem transcript_cons (a e t : List Char) (items : List (List Char × List Char)) :
    transcript a ((e, t) :: items) = a.map (·, false) ++ (e.map (·, true) ++ transcript t items) := by
  simp [transcript]

theorem transcript_text (a t : List Char) (items : List (List Char × List Char)) : transcript (a ++ t) items = a.map (·, false) ++ transcript t items := by
  simp [transcript]

/-- C125, C23: a text with any number of escape sequences in it, in any reads, is delivered call by call as the text without them in the reads without
them.  The texts between do not end with CR or FF before a sequence, the whole does not begin with a byte-order mark behind
a sequence, and a sequence at the end does not come after a newline. -/
theorem c125_transcript (nel lsps : Bool) (items : List (List Char × List Char)) : ∀ (a : List Char) (_ : Plain a)
    (_ : ∀ x ∈ items, IsEscape x.1) (_ : ∀ x ∈ items.dropLast, Plain x.2)
    (_ : a ≠ [] ∨ (items.flatMap (·.2)).head? ≠ some BOM)
    (_ : ∀ x ∈ items.getLast?, x.2 = [] → ∃ c, (a ++ items.flatMap (·.2)).getLast? = some c ∧ c ≠ '\n' ∧ single nel lsps c ≠ .nl ∧ c ≠ BOM)
    (pieces : List (List (Char × Bool))) (last : List (Char × Bool)) (_ : pieces.flatten ++ last = transcript a items) (lens : List Nat),
    (readMany ucd15 lens (.new nel lsps) (script (pieces.map fun p => (p.filter (!·.2)).map (·.1)) ((last.filter (!·.2)).map (·.1)))).map (fun r => (r.ret, r.out)) =
    (readMany ucd15 lens (.new nel lsps) (script (pieces.map (·.map (·.1))) (last.map (·.1)))).map (fun r => (r.ret, r.out)) := by
  induction items with
  | nil =>
    intro a ha _ _ _ _ pieces last h lens
    have hf : ∀ x ∈ pieces.flatten ++ last, x.2 = false := by
      rw [h]; intro x hx
      simp only [transcript, List.flatMap_nil, List.append_nil, List.mem_map] at hx
      obtain ⟨c, -, rfl⟩ := hx; rfl
    have h1 : pieces.map (fun p => (p.filter (!·.2)).map (·.1)) = pieces.map (·.map (·.1)) := by
      refine List.map_congr_left fun p hp => ?_
      rw [List.filter_eq_self.2 fun x hx => by rw [hf x (List.mem_append_left _ (List.mem_flatten.2 ⟨p, hp, hx⟩))]; rfl]
    rw [h1, List.filter_eq_self.2 fun x hx => by rw [hf x (List.mem_append_right _ hx)]; rfl]
  | cons x items ih =>
    obtain ⟨e, t⟩ := x
    intro a ha he hp hbom hend pieces last h lens
    have hE := he (e, t) (by simp)
    -- label the scalars of the first sequence
    have hL : transcript a ((e, t) :: items) = (a.map (fun c => (c, false, false)) ++ (e.map (fun c => (c, true, true)) ++
        (transcript t items).map fun x => (x.1, false, x.2))).map fun x : Char × Bool × Bool => (x.1, x.2.2) := by
      rw [transcript_cons]; simp [Function.comp_def]
    obtain ⟨ps, l, h1, h2, h3⟩ := pieces_lift (f := fun x : Char × Bool × Bool => (x.1, x.2.2)) pieces last _ (h.trans hL)
    subst h2 h3
    have hm : ∀ X : List Char, (transcript t items).map (·.1) = X → X.head? = some BOM → (t ++ items.flatMap (·.2)).head? = some BOM := by
      rintro X rfl hX
      cases t with
      | cons c t => simpa [transcript] using hX
      | nil =>
        exfalso
        cases items with
        | nil => simp [transcript] at hX
        | cons y ys =>
          obtain ⟨r, hr, -⟩ := quiet_escape (U := ucd15) (he y (by simp))
          simp [transcript, hr] at hX
          revert hX; decide
    have step := c23_same_calls nel lsps a e ((transcript t items).map (·.1)) ha hE (hbom.imp_right fun g hX => g (hm _ rfl hX)) ?_
      (ps.map (·.map fun x => (x.1, x.2.1))) (l.map fun x => (x.1, x.2.1)) ?_ lens
    · simp only [List.map_map, Function.comp_def] at step ⊢
      rw [← step]
      by_cases hit : items = []
      · subst hit
        have hsame : ∀ x ∈ ps.flatten ++ l, x.2.1 = x.2.2 := by
          rw [h1]
          intro x hx
          simp only [transcript, List.flatMap_nil, List.append_nil, List.map_map, List.mem_append, List.mem_map, Function.comp] at hx
          rcases hx with ⟨c, -, rfl⟩ | ⟨c, -, rfl⟩ | ⟨c, -, rfl⟩ <;> rfl
        have hq : ∀ p : List (Char × Bool × Bool), (∀ x ∈ p, x.2.1 = x.2.2) → (p.map fun x => (x.1, x.2.2)) = p.map fun x => (x.1, x.2.1) :=
          fun p hp => List.map_congr_left fun x hx => by rw [hp x hx]
        have hps : (ps.map fun p => ((p.map fun x => (x.1, x.2.2)).filter (!·.2)).map (·.1)) =
            ps.map fun p => ((p.map fun x => (x.1, x.2.1)).filter (!·.2)).map (·.1) :=
          List.map_congr_left fun p hp => by rw [hq p fun x hx => hsame x (List.mem_append_left _ (List.mem_flatten.2 ⟨p, hp, hx⟩))]
        rw [hq l fun x hx => hsame x (List.mem_append_right _ hx), hps]
      · have ht : Plain t := hp (e, t) (by
          cases items with
          | nil => exact absurd rfl hit
          | cons y ys => simp)
        have hat : Plain (a ++ t) := by
          refine ⟨by simp [ha.1, ht.1], ?_, ?_⟩
          · rw [List.getLast?_append]
            cases e : t.getLast? with
            | none => exact ha.2.1
            | some c => have := ht.2.1; rw [e] at this; simpa using this
          · rw [List.getLast?_append]
            cases e : t.getLast? with
            | none => exact ha.2.2
            | some c => have := ht.2.2; rw [e] at this; simpa using this
        have rest := ih (a ++ t) hat (fun x hx => he x (by simp [hx])) (fun x hx => hp x (by
            cases items with
            | nil => exact absurd rfl hit
            | cons y ys => rw [List.dropLast_cons_of_ne_nil (by simp)]; exact List.mem_cons_of_mem _ hx)) (by
            rcases hbom with g | g
            · exact .inl (by simp [g])
            · by_cases h0 : t = []
              · subst h0; exact .inr (by simpa using g)
              · exact .inl (by simp [h0])) (fun x hx h0 => by
            have := hend x (by
              rw [List.getLast?_cons]
              rw [Option.mem_def] at hx
              rw [hx]; rfl) h0
            simpa using this)
          (ps.map fun p => (p.filter fun x => !x.2.1).map fun x => (x.1, x.2.2)) ((l.filter fun x => !x.2.1).map fun x => (x.1, x.2.2)) (by
            have : (ps.map fun p => (p.filter fun x => !x.2.1).map fun x => (x.1, x.2.2)).flatten ++ (l.filter fun x => !x.2.1).map (fun x => (x.1, x.2.2)) =
                ((ps.flatten ++ l).filter fun x => !x.2.1).map fun x => (x.1, x.2.2) := by
              rw [List.filter_append, List.map_append, List.filter_flatten, List.map_flatten, List.map_map]; rfl
            rw [this, h1, transcript_text]
            have f1 : ∀ {α : Type} (q : List α), q.filter (fun _ => true) = q := fun q => List.filter_eq_self.2 fun _ _ => rfl
            have f2 : ∀ {α : Type} (q : List α), q.filter (fun _ => false) = [] := fun q => List.filter_eq_nil_iff.2 fun _ _ => by simp
            simp [List.filter_append, List.filter_map, Function.comp_def, f1, f2]) lens
        have himp : ∀ x ∈ ps.flatten ++ l, x.2.1 = true → x.2.2 = true := by
          rw [h1]
          intro x hx
          simp only [List.mem_append, List.mem_map] at hx
          rcases hx with ⟨c, -, rfl⟩ | ⟨c, -, rfl⟩ | ⟨c, -, rfl⟩ <;> simp
        have hff : ∀ p : List (Char × Bool × Bool), (∀ x ∈ p, x.2.1 = true → x.2.2 = true) → ((p.map fun x => (x.1, x.2.2)).filter (!·.2)).map (·.1) =
            (((p.filter fun x => !x.2.1).map fun x => (x.1, x.2.2)).filter (!·.2)).map (·.1) := by
          intro p hp
          induction p with
          | nil => rfl
          | cons x p ihp =>
            have g := ihp fun y hy => hp y (by simp [hy])
            have g0 := hp x (by simp)
            obtain ⟨c, m1, m2⟩ := x
            cases m1 <;> cases m2
            · simpa using g
            · simpa using g
            · simp at g0
            · simpa using g
        have hps : (ps.map fun p => ((p.map fun x => (x.1, x.2.2)).filter (!·.2)).map (·.1)) =
            ps.map fun p => (((p.filter fun x => !x.2.1).map fun x => (x.1, x.2.2)).filter (!·.2)).map (·.1) :=
          List.map_congr_left fun p hp => hff p fun x hx => himp x (List.mem_append_left _ (List.mem_flatten.2 ⟨p, hp, hx⟩))
        rw [hff l fun x hx => himp x (List.mem_append_right _ hx), hps]
        simp only [List.map_map, Function.comp_def] at rest
        rw [rest]
        simp only [List.filter_map, Function.comp_def, List.map_map]
    · intro h0
      have hz := List.map_eq_nil_iff.1 h0
      cases items with
      | nil =>
        have ht : t = [] := by simpa [transcript] using hz
        subst ht
        have := hend (e, []) (by simp) rfl
        simpa using this
      | cons y ys =>
        obtain ⟨r, hr, -⟩ := quiet_escape (U := ucd15) (he y (by simp))
        simp [transcript, hr] at hz
    · rw [← List.map_flatten, ← List.map_append, h1]
      simp [Function.comp_def]

/-- Two sequences, the first cut by the end of a read. -/
example : Plain ['a'] ∧ IsEscape (ESC :: "[1m".toList) ∧ Plain ['b', '\n'] ∧
    [[('a', false), (ESC, true)], [('[', true), ('1', true), ('m', true), ('b', false), ('\n', false)]].flatten ++ [(ESC, true), ('M', true), ('c', false)] =
      transcript ['a'] [(ESC :: "[1m".toList, ['b', '\n']), ([ESC, 'M'], ['c'])] := by
  exact ⟨by unfold Plain; decide, .csi ['1'] 'm' (by decide) (by decide) (by decide), by unfold Plain; decide, by decide⟩

/-- C125: the text of a transcript is read as if the sequences of the document were not there. -/
theorem c125_terminal_partial (nel lsps : Bool) (a : List Char) (items : List (List Char × List Char)) (ha : Plain a)
    (he : ∀ x ∈ items, ∃ row ∈ terminalRows, row ≠ [.lit ESC, .lit '7'] ∧ row ≠ [.lit ESC, .lit '8'] ∧ FitsRow row x.1) (hp : ∀ x ∈ items.dropLast, Plain x.2)
    (hbom : a ≠ [] ∨ (items.flatMap (·.2)).head? ≠ some BOM)
    (hend : ∀ x ∈ items.getLast?, x.2 = [] → ∃ c, (a ++ items.flatMap (·.2)).getLast? = some c ∧ c ≠ '\n' ∧ single nel lsps c ≠ .nl ∧ c ≠ BOM)
    (pieces : List (List (Char × Bool))) (last : List (Char × Bool)) (h : pieces.flatten ++ last = transcript a items) (lens : List Nat) :
    (readMany ucd15 lens (.new nel lsps) (script (pieces.map fun p => (p.filter (!·.2)).map (·.1)) ((last.filter (!·.2)).map (·.1)))).map (fun r => (r.ret, r.out)) =
    (readMany ucd15 lens (.new nel lsps) (script (pieces.map (·.map (·.1))) (last.map (·.1)))).map (fun r => (r.ret, r.out)) :=
  c125_transcript nel lsps items a ha (fun x hx => by
    obtain ⟨row, h1, h2, h3, h4⟩ := he x hx
    exact c125_sequences row h1 h2 h3 _ h4) hp hbom hend pieces last h lens

example : ∃ row ∈ terminalRows, row ≠ [.lit ESC, .lit '7'] ∧ row ≠ [.lit ESC, .lit '8'] ∧ FitsRow row (ESC :: "[M".toList) :=
  ⟨[.lit ESC, .lit '[', .number, .lit 'M'], by decide, by decide, by decide,
    [ESC], _, rfl, rfl, ['['], _, rfl, rfl, [], _, rfl, (by decide : ∀ c ∈ ([] : List Char), c.isDigit = true), ['M'], _, rfl, rfl, rfl⟩

/-- C125 does not hold in full: `ESC 7`, which saves the position of the cursor, leaves a 7 in the text, and Alt with a digit the digit; a sequence
behind the last newline makes an empty line; one between CR and LF makes two newlines of them; and one in front of a byte-order mark
keeps it, as U+2060. -/
theorem c125_refuted : [.lit ESC, .lit '7'] ∈ terminalRows ∧
    output ucd15 false false (script [] ['a', ESC, '7', 'b']) [136] = ['a', '7', 'b', '\n'] ∧
    output ucd15 false false (script [] ['a', '\n', ESC, '[', 'K']) [136] = ['a', '\n', '\n'] ∧
    output ucd15 false false (script [] ['a', '\r', ESC, '[', 'K', '\n', 'b']) [136] = ['a', '\n', '\n', 'b', '\n'] ∧
    output ucd15 false false (script [] [ESC, '[', 'K', BOM, 'b']) [136] = ['\u2060', 'b', '\n'] := by decide +kernel

end Verif
