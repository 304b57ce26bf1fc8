import Verif.DocScalars
import Verif.Props.CutAdds
import Verif.Props.Escapes

/-!
# Properties C04, C65 and C66, apart from U+34F
-/

namespace Verif
open Ucd Spec

/-- What a lossy conversion delivers, apart from U+34F. -/
theorem lossy_scalars (v : List Char) (chunks : List (List Char)) (last : List Char)
    (hv : chunks.flatten ++ last = v) (hb : SliceReads chunks last) (lens : Nat → Nat) (t : List Char) (h : Converts chunks last lens t) :
    t.filter (· ≠ CGJ) = bomPrefix v ++ (normChain ucd15 (codeRows (dropBom v))).filter (· ≠ CGJ) ++ (if Swallowed (dropBom v) then ['\n'] else []) := by
  subst hv
  rw [(lossy_adds chunks last hb lens t h).same, lossyText_swallow, List.filter_append]
  have hp : (bomPrefix (chunks.flatten ++ last)).filter (· ≠ CGJ) = bomPrefix (chunks.flatten ++ last) := by
    unfold bomPrefix; split <;> decide
  have hg := normChain_guards textLaws15 (codeRows (dropBom (chunks.flatten ++ last)))
  rw [hp, List.append_assoc]
  congr 1
  split
  · rw [normChain_nl textLaws15, List.filter_append]
    exact congrArg (· ++ ['\n']) hg
  · rw [List.append_nil, List.append_nil]; exact hg

/-- The table turns a leading U+FEFF into U+2060, which stands alone. -/
theorem codeRows_bom (v : List Char) :
    (normChain ucd15 (codeRows v)).filter (· ≠ CGJ) = bomPrefix v ++ (normChain ucd15 (codeRows (dropBom v))).filter (· ≠ CGJ) := by
  cases v with
  | nil => rfl
  | cons c v =>
    by_cases hc : c = BOM
    · subst hc
      have e : codeRows (BOM :: v) = WJ :: codeRows v := by
        rw [codeRows_one (by decide) (by decide) (by decide) (by decide)]
        rw [show replace BOM = [WJ] by decide +kernel]; rfl
      have := normChain_split textLaws15 (b := WJ) textLaws15.wj_inert (by decide +kernel) (by decide) [] (codeRows v)
      rw [List.nil_append, normChain_nil, List.nil_append] at this
      rw [e, this]
      rfl
    · have : dropBom (c :: v) = c :: v := by simp [dropBom, dropOne, hc]
      rw [this]
      simp [bomPrefix, hc]

/-! ## C04 -/

/-- C04: what `from_text_lossy` returns has the scalars of the documented conversion, apart from U+34F, and a newline behind them if the
string ends with a newline that is part of an escape sequence: for every string and every way of cutting it. -/
theorem c04_scalars_exact (v : List Char) (chunks : List (List Char)) (last : List Char)
    (hv : chunks.flatten ++ last = v) (hb : SliceReads chunks last) (lens : Nat → Nat) (t : List Char) (h : Converts chunks last lens t) :
    t.filter (· ≠ CGJ) = (Spec.string ucd15 v ++ (if Swallowed (dropBom v) then ['\n'] else [])).filter (· ≠ CGJ) := by
  rw [lossy_scalars v chunks last hv hb lens t h, List.filter_append]
  congr 1
  · rw [string_eq, List.filter_append, normalize_same textLaws15]
    have hp : (bomPrefix v).filter (· ≠ CGJ) = bomPrefix v := by unfold bomPrefix; split <;> decide
    rw [hp]
    exact congrArg (_ ++ ·) (normChain_guards textLaws15 (codeRows (dropBom v))).symm
  · split <;> decide

/-! ## C65 -/

/-- C65 apart from U+34F: for every string with no U+FB03 and not both U+18 and ESC, cut in any way, the result of `from_text_lossy` has the scalars of the
document's conversion, and a newline behind them if the string ends with a newline that is part of an escape sequence. The differences at
the ends of the text, behind escape sequences and around unassigned scalars are differences in U+34F only. -/
theorem c65_same_scalars_partial (v : List Char) (h1 : '\x18' ∉ v ∨ '\x1b' ∉ v) (h2 : 'ﬃ' ∉ v) (chunks : List (List Char)) (last : List Char)
    (hv : chunks.flatten ++ last = v) (hb : SliceReads chunks last) (lens : Nat → Nat) (t : List Char) (h : Converts chunks last lens t) :
    t.filter (· ≠ '͏') = (Doc.string false false v ++ (if Swallowed (dropBom v) then ['\n'] else [])).filter (· ≠ '͏') := by
  show t.filter (· ≠ CGJ) = List.filter (· ≠ CGJ) _
  rw [lossy_scalars v chunks last hv hb lens t h, List.filter_append, doc_string_same h1 h2, codeRows_bom v]
  congr 1
  split <;> decide

/-- A leading U+FEFF before a mark, an escape sequence, an unassigned scalar after U+34F, and a final U+890: the document's conversion
differs, in U+34F only. -/
example : fromTextLossy ucd15 [['\ufeff', '\u0301', '\x1b']] ['[', 'm', 'a', '\u034f', '\u0378', '\u0890'] [4096, 4096, 4096] =
      some ['\u2060', '\u034f', '\u0301', 'a', '\u034f', '\u0378', '\u0890'] ∧
    Doc.string false false ['\ufeff', '\u0301', '\x1b', '[', 'm', 'a', '\u034f', '\u0378', '\u0890'] =
      ['\u2060', '\u0301', 'a', '\u034f', '\u0378', '\u034f', '\u0890', '\u034f'] := by
  decide +kernel

/-- A newline that is part of an escape sequence. -/
example : Swallowed ['a', '\x1b', ']', '\n'] ∧ fromTextLossy ucd15 [] ['a', '\x1b', ']', '\n'] [4096, 4096] = some ['a', '\n'] ∧
    Doc.string false false ['a', '\x1b', ']', '\n'] = ['a'] := by
  decide +kernel

/-! ## C66 -/

theorem swallowed_codeRows {s : List Char} (h1 : s.getLast? ≠ some '\r') (h2 : s.getLast? ≠ some FF) :
    codeRows (s ++ ['\n']) = codeRows s ++ (if Swallowed (s ++ ['\n']) then [] else ['\n']) := by
  unfold codeRows
  by_cases hw : Swallowed (s ++ ['\n'])
  · rw [if_pos hw, List.append_nil]
    rcases tokens_behind (fin := finCan) (one := single false false) (k := '\n') (by decide) (by decide) (by decide) (by decide) (by decide) _ s (Nat.le_refl _) (fun _ => ⟨h1, h2⟩) with h | h
    · exact absurd (by rw [h]; simp) hw.2
    · rw [h]
  · rw [if_neg hw, tokens_snoc (by decide) _ s (Nat.le_refl _) h1 h2 (Decidable.byContradiction fun h => hw ⟨Or.inl (by simp), h⟩), List.flatMap_append]
    rfl

/-- The two stream conversions, apart from U+34F. -/
theorem stream_scalars {s : List Char} (h1 : '\x18' ∉ s ∨ '\x1b' ∉ s) (h2 : 'ﬃ' ∉ s) (h3 : (dropBom s).getLast? ≠ some '\x0c') :
    (Spec.stream ucd15 false false s).filter (· ≠ CGJ) =
      (Doc.stream false false s ++ (if Swallowed (Doc.addNewline (dropBom s)) then ['\n'] else [])).filter (· ≠ CGJ) := by
  rw [Spec.stream, normalize_same textLaws15, List.filter_append]
  unfold Doc.stream
  have g1 : '\x18' ∉ dropBom s ∨ '\x1b' ∉ dropBom s := h1.imp (fun h1 g => h1 (mem_dropOne g)) (fun h1 g => h1 (mem_dropOne g))
  have g2 : 'ﬃ' ∉ dropBom s := fun g => h2 (mem_dropOne g)
  generalize dropBom s = r at g1 g2 h3 ⊢
  have hg := normChain_guards textLaws15 (codeRows r)
  by_cases hr : r = []
  · subst hr; decide +kernel
  have hne : tokens finCan (single false false) r ≠ [] := tokens_ne_nil _ r (Nat.le_refl _) hr
  by_cases hn : r.getLast? = some '\n' ∨ r.getLast? = some '\r'
  · have e : Doc.addNewline r = r := by unfold Doc.addNewline; rw [if_pos (Or.inr hn)]
    rw [e, doc_string_same g1 g2]
    unfold translate
    simp only
    by_cases hw : Swallowed r
    · rw [if_neg (by simp [hne, hw.2]), if_pos hw, normChain_nl textLaws15, List.filter_append]
      exact congrArg (· ++ _) hg
    · rw [if_pos (Or.inr (Decidable.byContradiction fun h => hw ⟨hn, h⟩)), if_neg hw]
      simpa using hg
  · have e : Doc.addNewline r = r ++ ['\n'] := by unfold Doc.addNewline; rw [if_neg (by rintro (h | h) <;> simp_all)]
    rw [not_or] at hn
    have k1 : '\x18' ∉ r ++ ['\n'] ∨ '\x1b' ∉ r ++ ['\n'] := g1.imp (fun g => by simp [g]) (fun g => by simp [g])
    have k2 : 'ﬃ' ∉ r ++ ['\n'] := by simp [g2]
    rw [e, doc_string_same k1 k2, swallowed_codeRows hn.2 h3]
    unfold translate
    simp only
    rw [if_neg, normChain_nl textLaws15, List.filter_append]
    · by_cases hw : Swallowed (r ++ ['\n'])
      · rw [if_pos hw, if_pos hw, List.append_nil]
        exact congrArg (· ++ _) hg
      · rw [if_neg hw, if_neg hw, normChain_nl textLaws15, List.filter_append, List.filter_nil, List.append_nil]
        exact congrArg (· ++ _) hg
    · rintro (h | h)
      · exact hne h
      · have := tokens_nl_last _ r (Nat.le_refl _) h; simp_all

/-- C66 apart from U+34F: for every content with no U+FB03, not both U+18 and ESC, and no U+C at the end, and every split, a reader delivers
the scalars of the document's stream conversion, and a newline behind them if the last newline is part of an escape sequence. -/
theorem c66_same_scalars_partial (s : List Char) (h1 : '\x18' ∉ s ∨ '\x1b' ∉ s) (h2 : 'ﬃ' ∉ s) (h3 : (dropBom s).getLast? ≠ some '\x0c')
    (chunks : List (List Char)) (last : List Char) (hs : chunks.flatten ++ last = s)
    (hb : (chunks ++ [last]).head? ≠ some [] ∨ s.head? ≠ some '\ufeff') (lens : List Nat) (h : Completes ucd15 false false (script chunks last) lens) :
    (output ucd15 false false (script chunks last) lens).filter (· ≠ '\u034f') =
      (Doc.stream false false s ++ (if Swallowed (Doc.addNewline (dropBom s)) then ['\n'] else [])).filter (· ≠ '\u034f') := by
  have hbs : BomSafe chunks last := by rw [BomSafe, hs]; exact hb
  rw [← show CGJ = '\u034f' from rfl, ← stream_scalars h1 h2 h3, ← hs]
  exact c17_same_scalars false false chunks last hbs lens h

example : Completes ucd15 false false (script [['\ufeff', '\u17b4'], ['\x1b', '[']] ['m', 'a', '\u200d']) [136, 136, 136, 136] :=
  completes_of (by decide +kernel)

example : output ucd15 false false (script [['\ufeff', '\u17b4'], ['\x1b', '[']] ['m', 'a', '\u200d']) [136, 136, 136, 136] = ['\ufffd', 'a', '\u200d', '\u034f', '\n'] ∧
    Doc.stream false false ['\ufeff', '\u17b4', '\x1b', '[', 'm', 'a', '\u200d'] = ['\u034f', '\ufffd', 'a', '\u200d', '\n'] := by decide +kernel

/-- C66 apart from U+34F with the compatibility modes: if there is no ESC, and no scalar that a mode turns into a newline stands last or
directly after U+D or U+C. -/
theorem c66_modes_same_scalars_partial (nel lsps : Bool) (s : List Char) (h1 : '\x1b' ∉ s) (h2 : 'ﬃ' ∉ s) (h3 : (dropBom s).getLast? ≠ some '\x0c')
    (h4 : ∀ c ∈ (dropBom s).getLast?, Doc.modes nel lsps c = c) (h5 : Loose nel lsps (dropBom s))
    (chunks : List (List Char)) (last : List Char) (hs : chunks.flatten ++ last = s)
    (hb : (chunks ++ [last]).head? ≠ some [] ∨ s.head? ≠ some '\ufeff') (lens : List Nat) (h : Completes ucd15 nel lsps (script chunks last) lens) :
    (output ucd15 nel lsps (script chunks last) lens).filter (· ≠ '\u034f') = (Doc.stream nel lsps s).filter (· ≠ '\u034f') := by
  have hbs : BomSafe chunks last := by rw [BomSafe, hs]; exact hb
  show List.filter (· ≠ CGJ) _ = List.filter (· ≠ CGJ) _
  rw [c17_same_scalars nel lsps chunks last hbs lens h, hs, stream_modes h1 h5, doc_modes h4]
  have back : ∀ c d : Char, Doc.modes nel lsps c = d → d ≠ '\n' → c = d := by
    intro c d h hd
    rcases modes_cases nel lsps c with ⟨e, -⟩ | ⟨e, -⟩
    · rw [← h, e]
    · rw [e] at h; exact absurd h.symm hd
  have k1 : '\x1b' ∉ s.map (Doc.modes nel lsps) := by
    intro g
    obtain ⟨c, hc, e⟩ := List.mem_map.1 g
    exact h1 (back c _ e (by decide) ▸ hc)
  have k2 : 'ﬃ' ∉ s.map (Doc.modes nel lsps) := by
    intro g
    obtain ⟨c, hc, e⟩ := List.mem_map.1 g
    exact h2 (back c _ e (by decide) ▸ hc)
  have kd : dropBom (s.map (Doc.modes nel lsps)) = (dropBom s).map (Doc.modes nel lsps) := modes_dropBom _ _ _
  have k3 : (dropBom (s.map (Doc.modes nel lsps))).getLast? ≠ some '\x0c' := by
    rw [kd, List.getLast?_map]
    cases hq : (dropBom s).getLast? with
    | none => simp
    | some c =>
      rw [Option.map_some, h4 c hq, ← hq]; exact h3
  rw [stream_scalars (Or.inr k1) k2 k3, if_neg, List.append_nil]
  intro g
  have := swallowed_esc g
  have hm : ESC ∈ dropBom (s.map (Doc.modes nel lsps)) := by
    unfold Doc.addNewline at this
    split at this
    · exact this
    · rcases List.mem_append.1 this with h | h
      · exact h
      · exact absurd h (by decide)
  exact k1 (mem_dropOne hm)

example : Completes ucd15 true true (script [['\u0301', '\u0085'], ['\u2028']] ['a', '\u034f', '\u0378', '\u200d']) [136, 136, 136, 136] :=
  completes_of (by decide +kernel)

example : output ucd15 true true (script [['\u0301', '\u0085'], ['\u2028']] ['a', '\u034f', '\u0378', '\u200d']) [136, 136, 136, 136] =
    ['\u034f', '\u0301', '\n', '\n', 'a', '\u034f', '\u0378', '\u200d', '\u034f', '\n'] := by decide +kernel

end Verif
