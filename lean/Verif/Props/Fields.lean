import Verif.Fields
import Verif.Delims
import Verif.Props.Strings
import Verif.Props.Exact

/-!
# C140: fields may be converted one by one
-/

namespace Verif
open Ucd Spec

/-- The lossy conversion of a string without escape sequences. -/
theorem converts_inside {s : List Char} (he : ESC ∉ s) {lens : Nat → Nat} {t : List Char} (h : Converts [] s lens t) :
    t = bomPrefix s ++ (lead0 ucd15 (inside (dropBom s)) ++ normChain ucd15 (inside (dropBom s)) ++ tail0 (inside (dropBom s))) := by
  obtain ⟨m, text, r1, r2⟩ := read_of_converts h
  have := r2.symm.trans (lossy_single textLaws15 r1)
  rw [Option.some.inj this, lossyText_swallow, if_neg (show ¬ Swallowed (dropBom s) from fun hs => he (mem_dropOne (swallowed_esc hs))), List.append_nil]
  congr 1
  exact normChain_ends textLaws15 _

theorem converts_same {s : List Char} {l l' : Nat → Nat} {t t' : List Char} (h : Converts [] s l t) (h' : Converts [] s l' t') : t = t' := by
  obtain ⟨m, text, r1, r2⟩ := read_of_converts h
  obtain ⟨m', text', r1', r2'⟩ := read_of_converts h'
  exact Option.some.inj ((r2.symm.trans (lossy_single textLaws15 r1)).trans (r2'.symm.trans (lossy_single textLaws15 r1')).symm)

theorem converts_total (s : List Char) : ∃ t, Converts [] s (fun _ => normalizationBufferSize) t :=
  ⟨_, converts_of (fun _ => Nat.le_refl _) fun _ _ h => lossy_single textLaws15 h⟩

/-- C140: a string of two fields and a delimiter, and the fields alone, converted: the fields come out as they do alone, but for the U+34F that is put
behind the first, if it ends with a scalar that may not end text, and before the second, if it begins with one that may not begin text. -/
theorem c140_two (d : Char) (hd : Delim ucd15 d) (a b : List Char) (ha : ESC ∉ a) (hb : ESC ∉ b) (hbom : b.head? ≠ some BOM)
    (lens lens1 lens2 : Nat → Nat) (t ta tb : List Char) (h : Converts [] (a ++ d :: b) lens t) (h1 : Converts [] a lens1 ta)
    (h2 : Converts [] b lens2 tb) :
    ∃ X Y, t = X ++ d :: Y ∧ ta = X ++ (if ∀ c ∈ (inside (dropBom a)).getLast?, isEnd c = true then [] else [CGJ]) ∧
      tb = (if ∀ c ∈ (inside b).head?, isStart ucd15 c = true then [] else [CGJ]) ++ Y := by
  have hed : ESC ∉ a ++ d :: b := by
    simp only [List.mem_append, List.mem_cons, not_or]
    exact ⟨ha, fun e => hd.single.2.2.2 e.symm, hb⟩
  have hbd : dropBom b = b := by
    cases b with
    | nil => rfl
    | cons c b => simp [dropBom, dropOne, show c ≠ BOM from fun e => hbom (by rw [e]; rfl)]
  have hdb : d ≠ BOM := by have := ok_not_special hd.ok; simp [this]
  have hab : dropBom (a ++ d :: b) = dropBom a ++ d :: b ∧ bomPrefix (a ++ d :: b) = bomPrefix a := by
    cases a with
    | nil => simp [dropBom, dropOne, bomPrefix, hdb]
    | cons c a => by_cases hc : c = BOM <;> simp [dropBom, dropOne, bomPrefix, hc]
  have hea : ESC ∉ dropBom a := fun hm => ha (mem_dropOne hm)
  have e := converts_inside hed h
  have e1 := converts_inside ha h1
  have e2 := converts_inside hb h2
  rw [hab.1, hab.2, inside_cut hd hea, (ends_cut hd _ _).1, (ends_cut hd _ _).2, normChain_split textLaws15 hd.inert hd.assigned hd.joiner] at e
  rw [hbd] at e2
  have hbp : bomPrefix b = [] := by simp [bomPrefix, hbom]
  rw [hbp, List.nil_append, List.append_assoc] at e2
  refine ⟨bomPrefix a ++ (lead0 ucd15 (inside (dropBom a)) ++ normChain ucd15 (inside (dropBom a))), normChain ucd15 (inside b) ++ tail0 (inside b), ?_, ?_, e2⟩
  · rw [e]; simp
  · rw [e1]; simp [tail0]

/-- C140: so converting fields one by one and putting the delimiter between the results is converting the whole, exactly if the first ends and the
second begins as text may. -/
theorem c140_two_iff (d : Char) (hd : Delim ucd15 d) (a b : List Char) (ha : ESC ∉ a) (hb : ESC ∉ b) (hbom : b.head? ≠ some BOM)
    (lens lens1 lens2 : Nat → Nat) (t ta tb : List Char) (h : Converts [] (a ++ d :: b) lens t) (h1 : Converts [] a lens1 ta)
    (h2 : Converts [] b lens2 tb) :
    t = ta ++ d :: tb ↔ (∀ c ∈ (inside (dropBom a)).getLast?, isEnd c = true) ∧ ∀ c ∈ (inside b).head?, isStart ucd15 c = true := by
  obtain ⟨X, Y, rfl, rfl, rfl⟩ := c140_two d hd a b ha hb hbom lens lens1 lens2 t ta tb h h1 h2
  constructor
  · intro e
    have := congrArg List.length e
    split at this <;> split at this <;> simp at this
    exact ⟨‹_›, ‹_›⟩
  · rintro ⟨e1, e2⟩
    rw [if_pos e1, if_pos e2]; simp

/-- C140 in terms of the results alone: if the first result does not end, and the second does not begin, with U+34F, then the whole is the two with the
delimiter between them. -/
theorem c140_observed (d : Char) (hd : Delim ucd15 d) (a b : List Char) (ha : ESC ∉ a) (hb : ESC ∉ b) (hbom : b.head? ≠ some BOM)
    (lens lens1 lens2 : Nat → Nat) (t ta tb : List Char) (h : Converts [] (a ++ d :: b) lens t) (h1 : Converts [] a lens1 ta)
    (h2 : Converts [] b lens2 tb) (hl : ta.getLast? ≠ some CGJ) (hf : tb.head? ≠ some CGJ) : t = ta ++ d :: tb := by
  obtain ⟨X, Y, rfl, rfl, rfl⟩ := c140_two d hd a b ha hb hbom lens lens1 lens2 t ta tb h h1 h2
  split at hl
  · split at hf
    · rw [if_pos ‹_›, if_pos ‹_›]; simp
    · simp at hf
  · simp at hl

/-- The fields with the delimiter between them. -/
def joined (d : Char) : List (List Char) → List Char
  | [] => []
  | [f] => f
  | f :: fs => f ++ d :: joined d fs

/-- C140 for any number of fields: if each but the first begins and each but the last ends as text may, then converting the whole is converting each. -/
theorem c140_all (d : Char) (hd : Delim ucd15 d) : ∀ (ps : List (List Char × List Char)) (lens : Nat → Nat) (t : List Char),
    (∀ p ∈ ps, ESC ∉ p.1 ∧ ∃ l, Converts [] p.1 l p.2) →
    (∀ p ∈ ps.tail, p.1.head? ≠ some BOM ∧ ∀ c ∈ (inside p.1).head?, isStart ucd15 c = true) →
    (∀ p ∈ ps.dropLast, ∀ c ∈ (inside (dropBom p.1)).getLast?, isEnd c = true) → ps ≠ [] →
    Converts [] (joined d (ps.map (·.1))) lens t → t = joined d (ps.map (·.2)) := by
  intro ps
  induction ps with
  | nil => intro lens t _ _ _ h; simp at h
  | cons p ps ih =>
    intro lens t h1 h2 h3 _ ht
    cases ps with
    | nil =>
      obtain ⟨l, hl⟩ := (h1 p (by simp)).2
      exact converts_same ht hl
    | cons q qs =>
      have hesc : ∀ fs : List (List Char), (∀ f ∈ fs, ESC ∉ f) → ESC ∉ joined d fs := by
        intro fs
        induction fs with
        | nil => intro _; simp [joined]
        | cons f fs ih =>
          intro hf
          cases fs with
          | nil => exact hf f (by simp)
          | cons g gs =>
            simp only [joined, List.mem_append, List.mem_cons, not_or]
            exact ⟨hf f (by simp), fun e => hd.single.2.2.2 e.symm, ih fun x hx => hf x (by simp only [List.mem_cons] at hx ⊢; exact .inr hx)⟩
      have hrest : ∃ r, joined d ((q :: qs).map (·.1)) = q.1 ∨ joined d ((q :: qs).map (·.1)) = q.1 ++ d :: r := by
        cases qs with
        | nil => exact ⟨[], .inl rfl⟩
        | cons x xs => exact ⟨_, .inr rfl⟩
      obtain ⟨hq1, hq2⟩ := h2 q (by simp)
      have hdb : d ≠ BOM := by have := ok_not_special hd.ok; simp [this]
      have hbom : (joined d ((q :: qs).map (·.1))).head? ≠ some BOM := by
        obtain ⟨r, hr | hr⟩ := hrest
        · rw [hr]; exact hq1
        · rw [hr]
          cases e : q.1 with
          | nil => simp [hdb]
          | cons c f => rw [e] at hq1; simpa using hq1
      have hbegin : ∀ c ∈ (inside (joined d ((q :: qs).map (·.1)))).head?, isStart ucd15 c = true := by
        obtain ⟨r, hr | hr⟩ := hrest
        · rw [hr]; exact hq2
        · rw [hr, inside_cut hd (h1 q (by simp)).1]
          cases e : inside q.1 with
          | nil => simp [hd.start]
          | cons c f => rw [e] at hq2; simpa using hq2
      have hesc' : ESC ∉ joined d ((q :: qs).map (·.1)) := hesc _ fun f hf => by
        obtain ⟨x, hx, rfl⟩ := List.mem_map.1 hf
        exact (h1 x (by simp only [List.mem_cons] at hx ⊢; exact .inr hx)).1
      obtain ⟨l, hl⟩ := (h1 p (by simp)).2
      obtain ⟨t', ht'⟩ := converts_total (joined d ((q :: qs).map (·.1)))
      have := ih (fun _ => normalizationBufferSize) t' (fun x hx => h1 x (List.mem_cons_of_mem _ hx)) (fun x hx => h2 x (by simp only [List.tail_cons] at hx ⊢; exact List.mem_cons_of_mem _ hx))
        (fun x hx => h3 x (by rw [List.dropLast_cons_of_ne_nil (by simp)]; exact List.mem_cons_of_mem _ hx)) (by simp) ht'
      subst this
      exact (c140_two_iff d hd p.1 _ (h1 p (by simp)).1 hesc' hbom lens l _ t p.2 _ ht hl ht').2 ⟨h3 p (by simp), hbegin⟩

/-- C140: tab, space, digits and all ASCII punctuation except `<`, `=`, `>`, `;` and the backquote can be such delimiters. -/
theorem c140_delimiters (d : Char) (h : d = '\t' ∨ (0x20 ≤ d.toNat ∧ d.toNat ≤ 0x7e)) (hl : ¬ (0x41 ≤ d.toNat ∧ d.toNat ≤ 0x5a) ∧ ¬ (0x61 ≤ d.toNat ∧ d.toNat ≤ 0x7a))
    (hs : d ≠ '<' ∧ d ≠ '=' ∧ d ≠ '>' ∧ d ≠ ';' ∧ d ≠ '`') : Delim ucd15 d := by
  have hn : d.toNat ≤ 0x7f := by
    rcases h with rfl | h
    · decide
    · omega
  have hne : ∀ c : Char, d ≠ c → d.toNat ≠ c.toNat := fun c h e => h (Char.toNat_inj.1 e)
  have h1 := hne _ hs.1
  have h2 := hne _ hs.2.1
  have h3 := hne _ hs.2.2.1
  have h4 := hne _ hs.2.2.2.1
  have h5 := hne _ hs.2.2.2.2
  have hp : (plainN d.toNat = true ∨ fieldN d.toNat = true) ∧ okChar d = true ∧ isEnd d = true := by
    have hd : d = Char.ofNat d.toNat := (Char.ofNat_toNat d).symm
    have key : ∀ n, n < 0x80 → ((n = 9 ∨ (0x20 ≤ n ∧ n ≤ 0x7e)) ∧ ¬ (0x41 ≤ n ∧ n ≤ 0x5a) ∧ ¬ (0x61 ≤ n ∧ n ≤ 0x7a) ∧ n ≠ 0x3c ∧ n ≠ 0x3d ∧ n ≠ 0x3e ∧
        n ≠ 0x3b ∧ n ≠ 0x60) → (plainN n = true ∨ fieldN n = true) ∧ okChar (Char.ofNat n) = true ∧ isEnd (Char.ofNat n) = true := by decide +kernel
    have := key d.toNat (by omega) ⟨by rcases h with rfl | h; exact .inl rfl; exact .inr h, hl.1, hl.2, h1, h2, h3, h4, h5⟩
    rw [← hd] at this
    exact this
  refine ⟨hp.2.1, ?_, ?_, by simp [isAssigned, textLaws15.assigned_ascii d hn], hp.1.elim inert_of_plain inert_of_field, textLaws15.start_ascii d hn, hp.2.2⟩
  · rintro rfl
    rcases h with h | h
    · exact absurd h (by decide)
    · exact absurd h.1 (by decide)
  · rintro rfl
    exact absurd hn (by decide)

/-- With `=` as the delimiter it can be different: a stroke at the beginning of the second field makes `=` another scalar. -/
theorem c140_not_equals : fromTextLossy ucd15 [] (['a'] ++ '=' :: ['\u0338', 'b']) [136, 136] = some ['a', '≠', 'b'] ∧
    fromTextLossy ucd15 [] ['\u0338', 'b'] [136, 136] = some [CGJ, '\u0338', 'b'] := by decide +kernel

/-- Three fields, the first with an accent to compose, the last with a scalar of the Sequence Table. -/
example : fromTextLossy ucd15 [] (joined ',' [['e', '\u0301'], [], ['ﬃ', 'x']]) [136, 136] = some (joined ',' [['é'], [], ['f', 'f', 'i', 'x']]) ∧
    fromTextLossy ucd15 [] ['e', '\u0301'] [136, 136] = some ['é'] ∧ fromTextLossy ucd15 [] [] [136, 136] = some [] ∧
    fromTextLossy ucd15 [] ['ﬃ', 'x'] [136, 136] = some ['f', 'f', 'i', 'x'] ∧ Delim ucd15 ',' :=
  ⟨by decide +kernel, by decide +kernel, by decide +kernel, by decide +kernel, c140_delimiters ',' (by decide) (by decide) (by decide)⟩

/-- A first field that may not end, and a second that may not begin. -/
example : fromTextLossy ucd15 [] (['a', '\u200d'] ++ ',' :: ['\u0301']) [136, 136] = some ['a', '\u200d', ',', '\u0301'] ∧
    fromTextLossy ucd15 [] ['a', '\u200d'] [136, 136] = some ['a', '\u200d', CGJ] ∧ fromTextLossy ucd15 [] ['\u0301'] [136, 136] = some [CGJ, '\u0301'] := by
  decide +kernel

end Verif
