import Verif.Props.Transcript
import Verif.Props.Lossless
import Verif.Props.Everyday
import Verif.TalkPieces

/-!
# Keys typed at a terminal

What the keys of `docs/Terminal.md:217-324` send, and what a reader makes of it.
-/

namespace Verif
open Ucd Spec Tables

namespace Spec

/-- A key: a code, perhaps with the Alt modifier (`docs/Terminal.md:229-267`), or one that sends an escape sequence (`269-308`). -/
inductive Key where
  | code (alt : Bool) (c : Char)
  | seq (s : List Char)

/-- What the terminal sends for a key; Alt is a U+1B in front (`docs/Terminal.md:262-263`). -/
def Key.sent : Key → List Char
  | .code false c => [c]
  | .code true c => [ESC, c]
  | .seq s => s

/-- The keys there are: all the codes from U+0 to U+7F, and the sequences of the document.  `ESC 7` and `ESC 8`, which only programs send,
are Alt with a digit as keys. -/
def IsKey : Key → Prop
  | .code _ c => c.toNat ≤ 0x7f
  | .seq s => ∃ row ∈ terminalRows, row ≠ [.lit ESC, .lit '7'] ∧ row ≠ [.lit ESC, .lit '8'] ∧ FitsRow row s

/-- The text of a key. -/
def Key.gives : Key → List Char
  | .code alt c =>
    if c = '\n' ∨ c = '\r' then ['\n']
    else if c = FF then [' ']
    else if c = ESC ∨ (alt = true ∧ (c = CAN ∨ (0x40 ≤ c.toNat ∧ c.toNat ≤ 0x7e))) then []
    else if c = '\t' ∨ (0x20 ≤ c.toNat ∧ c.toNat ≤ 0x7e) then [c]
    else ['�']
  | .seq _ => []

/-- Keys whose meaning may depend on what follows. -/
def Key.waits : Key → Prop
  | .code alt c => c = '\r' ∨ c = FF ∨ c = ESC ∨ (alt = true ∧ (c = '[' ∨ c = ']'))
  | .seq _ => False

instance (k : Key) : Decidable k.waits := by
  cases k <;> unfold Key.waits <;> infer_instance

/-- Is it the Enter key? -/
def Key.enters : Key → Bool
  | .code _ c => c == '\n' || c == '\r'
  | .seq _ => false

end Spec

/-! ## One key -/

theorem ascii_replace : ∀ n : Fin 128, let c := Char.ofNat n.val
    c = '\n' ∨ c = '\r' ∨ c = FF ∨ c = ESC ∨
      replace c = if c = '\t' ∨ (0x20 ≤ c.toNat ∧ c.toNat ≤ 0x7e) then [c] else ['�'] := by decide +kernel

theorem mark_start : isStart ucd15 '�' = true := by decide +kernel
theorem mark_end : isEnd '�' = true := by decide +kernel
theorem mark_assigned : isAssigned ucd15 '�' = true := by decide +kernel

theorem ground_ascii (k : Ctl) {c : Char} (hc : c.toNat ≤ 0x7f) (h1 : c ≠ '\n') (h2 : c ≠ '\r') (h3 : c ≠ FF) (h4 : c ≠ ESC) :
    groundStep ucd15 k c = ({ k with state := .ground false, expectStarter := false },
      if c = '\t' ∨ (0x20 ≤ c.toNat ∧ c.toNat ≤ 0x7e) then [c] else ['�']) := by
  have hr := ascii_replace ⟨c.toNat, by omega⟩
  simp only [Char.ofNat_toNat, h1, h2, h3, h4, false_or] at hr
  have hn : ((k.nel && c == NEL) || (k.lsps && (c == LS || c == PS))) = false := by
    have a : (c == NEL) = false := beq_eq_false_iff_ne.2 (by rintro rfl; revert hc; decide)
    have b : (c == LS) = false := beq_eq_false_iff_ne.2 (by rintro rfl; revert hc; decide)
    have d : (c == PS) = false := beq_eq_false_iff_ne.2 (by rintro rfl; revert hc; decide)
    simp [a, b, d]
  unfold groundStep
  rw [if_neg h1, if_neg h2, if_neg h3, if_neg h4]
  simp only [hn, Bool.false_eq_true, if_false, hr]
  congr 1
  unfold startGuard
  rw [if_neg]
  split
  · simp [textLaws15.start_ascii c hc]
  · simp [mark_start]

theorem quiet_feed : ∀ (r : List Char) {s : RState} {k : Ctl}, k.state = s → Quiet ucd15 s r →
    feed ucd15 k r = ({ k with state := .ground false }, [])
  | [], s, k, hs, hq => by
    have hq : s = .ground false := hq
    subst hq
    cases k
    simp only [feed] at hs ⊢
    subst hs; rfl
  | c :: r, s, k, hs, hq => by
    obtain ⟨s2, h1, h2⟩ := hq
    simp only [feed, h1 k hs]
    rw [quiet_feed r (k := { k with state := s2 }) rfl h2]
    rfl

/-- A key that does not wait. -/
theorem key_feed {k : Ctl} {g : Bool} (hg : k.state = .ground g) {key : Key} (hk : IsKey key) (hw : ¬ key.waits) :
    ∃ k', feed ucd15 k key.sent = (k', key.gives) ∧ k'.state = .ground key.enters := by
  cases key with
  | seq s =>
    obtain ⟨row, h1, h2, h3, h4⟩ := hk
    obtain ⟨r, rfl, hq⟩ := quiet_escape (U := ucd15) (c125_sequences row h1 h2 h3 s h4)
    refine ⟨{ k with state := .ground false }, ?_, rfl⟩
    have h5 : stepChar ucd15 k ESC = ({ k with state := .esc }, []) := by
      rw [stepChar, hg]
      simp [groundStep, show ESC ≠ '\n' by decide, show ESC ≠ '\r' by decide, show ESC ≠ FF by decide]
    simp only [Key.sent, Key.gives, feed, h5]
    rw [quiet_feed r (k := { k with state := .esc }) rfl hq]
    rfl
  | code alt c =>
    have hc : c.toNat ≤ 0x7f := hk
    simp only [Key.waits, not_or] at hw
    obtain ⟨w1, w2, w3, w4⟩ := hw
    have plain : ∀ k : Ctl, ∀ g, k.state = .ground g → (alt = true → c ≠ CAN ∧ ¬ (0x40 ≤ c.toNat ∧ c.toNat ≤ 0x7e)) →
        ∃ k', groundStep ucd15 k c = (k', (Key.code alt c).gives) ∧ k'.state = .ground (Key.code alt c).enters := by
      intro k g hg ha
      by_cases hn : c = '\n'
      · subst hn
        refine ⟨{ k with state := .ground true, expectStarter := false }, ?_, ?_⟩
        · simp [groundStep, Key.gives]
        · simp [Key.enters]
      · refine ⟨{ k with state := .ground false, expectStarter := false }, (ground_ascii k hc hn w1 w2 w3).trans ?_, ?_⟩
        · congr 1
          simp only [Key.gives]
          rw [if_neg (c := c = '\n' ∨ _) (by simp [hn, w1]), if_neg (c := c = FF) w2, if_neg (c := c = ESC ∨ _)]
          rintro (h | ⟨h1, h2⟩)
          · exact w3 h
          · rcases h2 with h2 | h2
            · exact (ha h1).1 h2
            · exact (ha h1).2 h2
        · simp [Key.enters, hn, w1]
    cases alt with
    | false =>
      obtain ⟨k', h1, h2⟩ := plain k g hg (by simp)
      refine ⟨k', ?_, h2⟩
      rw [Key.sent, feed_one, stepChar, hg]
      exact h1
    | true =>
      have h5 : stepChar ucd15 k ESC = ({ k with state := .esc }, []) := by
        rw [stepChar, hg]
        simp [groundStep, show ESC ≠ '\n' by decide, show ESC ≠ '\r' by decide, show ESC ≠ FF by decide]
      simp only [not_and, true_implies, not_or] at w4
      have h6 : feed ucd15 k (Key.code true c).sent = stepChar ucd15 { k with state := .esc } c := by
        simp only [Key.sent, feed, h5, List.nil_append, List.append_nil]
      rw [h6, stepChar]
      simp only
      rw [if_neg w4.1, if_neg w4.2, if_neg w3]
      by_cases hf : (between 0x40 0x7e c || c == CAN) = true
      · rw [if_pos hf]
        have hf' : c = CAN ∨ (0x40 ≤ c.toNat ∧ c.toNat ≤ 0x7e) := by
          simp only [between, Bool.or_eq_true, Bool.and_eq_true, decide_eq_true_eq, beq_iff_eq] at hf
          exact hf.symm
        have hn : c ≠ '\n' := by
          rintro rfl
          revert hf'
          decide
        refine ⟨{ k with state := .ground false }, ?_, ?_⟩
        · simp only [Key.gives]
          rw [if_neg (c := c = '\n' ∨ _) (by simp [hn, w1]), if_neg (c := c = FF) w2, if_pos (.inr ⟨trivial, hf'⟩)]
        · simp [Key.enters, hn, w1]
      · rw [if_neg hf]
        refine plain { k with state := .ground false } false rfl fun _ => ?_
        simp only [between, Bool.or_eq_true, Bool.and_eq_true, decide_eq_true_eq, beq_iff_eq, not_or] at hf
        exact ⟨hf.2, hf.1⟩

/-- A key that waits. -/
theorem key_waits {k : Ctl} {g : Bool} (hg : k.state = .ground g) {key : Key} (hw : key.waits) :
    ∃ k' k'', feed ucd15 k key.sent = (k', []) ∧ finishState k' = (k'', key.gives) ∧ k''.state = .ground key.enters := by
  cases key with
  | seq s => exact absurd hw (by simp [Key.waits])
  | code alt c =>
    have h5 : ∀ c, groundStep ucd15 k c = stepChar ucd15 k c := fun c => by rw [stepChar, hg]
    have he : stepChar ucd15 k ESC = ({ k with state := .esc }, []) := by
      rw [← h5]
      simp [groundStep, show ESC ≠ '\n' by decide, show ESC ≠ '\r' by decide, show ESC ≠ FF by decide]
    have ha : feed ucd15 k (Key.code true c).sent = stepChar ucd15 { k with state := .esc } c := by
      simp only [Key.sent, feed, he, List.nil_append, List.append_nil]
    have hb : feed ucd15 k (Key.code false c).sent = groundStep ucd15 k c := by
      rw [h5, Key.sent, feed_one]
    rcases hw with rfl | rfl | rfl | ⟨rfl, rfl | rfl⟩
    · cases alt
      · exact ⟨_, _, by rw [hb, groundStep, if_neg (by decide), if_pos rfl], rfl, rfl⟩
      · exact ⟨_, _, by rw [ha]; rfl, rfl, rfl⟩
    · cases alt
      · exact ⟨_, _, by rw [hb, groundStep, if_neg (by decide), if_neg (by decide), if_pos rfl], rfl, rfl⟩
      · exact ⟨_, _, by rw [ha]; rfl, rfl, rfl⟩
    · cases alt
      · exact ⟨_, _, by rw [hb, groundStep, if_neg (by decide), if_neg (by decide), if_neg (by decide), if_pos rfl], rfl, rfl⟩
      · exact ⟨_, _, by rw [ha]; rfl, rfl, rfl⟩
    · exact ⟨_, _, by rw [ha]; rfl, rfl, rfl⟩
    · exact ⟨_, _, by rw [ha]; rfl, rfl, rfl⟩

/-! ## The keys of a group of reads -/

/-- A run of keys of which only the last may wait. -/
theorem keys_feed : ∀ (keys : List Key) {k : Ctl} {g : Bool}, k.state = .ground g → (∀ x ∈ keys, IsKey x) → (∀ x ∈ keys, ¬ x.waits) →
    ∃ k', feed ucd15 k (keys.flatMap Key.sent) = (k', keys.flatMap Key.gives) ∧
      k'.state = .ground ((keys.getLast?.map Key.enters).getD g)
  | [], k, g, hg, _, _ => ⟨k, rfl, hg⟩
  | x :: keys, k, g, hg, hk, hw => by
    obtain ⟨k1, h1, h2⟩ := key_feed hg (hk x (by simp)) (hw x (by simp))
    obtain ⟨k2, h3, h4⟩ := keys_feed keys h2 (fun y hy => hk y (by simp [hy])) (fun y hy => hw y (by simp [hy]))
    refine ⟨k2, ?_, ?_⟩
    · rw [List.flatMap_cons, feed_append, h1]
      simp only [h3, List.flatMap_cons]
    · rw [h4]
      cases keys with
      | nil => rfl
      | cons y ys =>
        rw [List.getLast?_cons_cons]
        cases h : (y :: ys).getLast? with
        | none => simp at h
        | some z => rfl

theorem gives_chars {key : Key} {c : Char} (hk : IsKey key) (hc : c ∈ key.gives) : c.toNat ≤ 0x7f ∨ c = '�' := by
  cases key with
  | seq s => simp [Key.gives] at hc
  | code alt d =>
    have hd : d.toNat ≤ 0x7f := hk
    simp only [Key.gives] at hc
    split at hc
    · simp only [List.mem_singleton] at hc; subst hc; left; decide
    · split at hc
      · simp only [List.mem_singleton] at hc; subst hc; left; decide
      · split at hc
        · simp at hc
        · split at hc
          · simp only [List.mem_singleton] at hc; subst hc; exact .inl hd
          · simp only [List.mem_singleton] at hc; exact .inr hc

theorem tame_end {c : Char} (h : c.toNat ≤ 0x7f ∨ c = '�') : isEnd c = true := by
  rcases h with h | rfl
  · exact ascii_end (by omega)
  · exact mark_end

theorem rows_no_bom : ∀ row ∈ terminalRows, ∀ p ∈ row, p ≠ .lit BOM := by decide +kernel

theorem sent_no_bom {key : Key} (hk : IsKey key) : BOM ∉ key.sent := by
  cases key with
  | code alt c =>
    have hc : c.toNat ≤ 0x7f := hk
    have h1 : BOM ≠ c := by rintro rfl; revert hc; decide
    cases alt <;> simp [Key.sent, h1, show BOM ≠ ESC by decide]
  | seq s =>
    obtain ⟨row, h1, h2, h3, h4⟩ := hk
    intro hb
    have hdig : ∀ c : Char, c.isDigit = true → c ≠ BOM := by rintro c hc rfl; revert hc; decide
    have hmod : ∀ d ∈ ['2', '3', '4', '5', '6', '7', '8'], ∀ c ∈ [';', d], c ≠ BOM := by decide
    refine fitsRow_all (P := (· ≠ BOM)) (ps := row) ?_ h4 BOM hb rfl
    intro p hp x hx c hc
    cases p with
    | lit d =>
      rw [show x = [d] from hx, List.mem_singleton] at hc
      rintro rfl
      exact rows_no_bom row h1 _ hp (by rw [hc])
    | number => exact hdig c (hx c hc)
    | attributes =>
      rcases hx c hc with h | h
      · exact hdig c h
      · rw [h]; decide
    | string =>
      have := (substr_iff.1 (text_substr hx)).1 c hc
      rintro rfl
      revert this
      decide +kernel
    | modifier =>
      obtain ⟨d, hd, rfl⟩ := hx
      exact hmod d hd c hc
    | optModifier =>
      rcases hx with rfl | ⟨d, hd, rfl⟩
      · simp at hc
      · exact hmod d hd c hc

/-- Reads that carry no U+FEFF. -/
theorem absorb_actives : ∀ (ps : List (List Char)) (k : Ctl) (T : List Char), BOM ∉ ps.flatten → ∀ s st, BOM ∉ s →
    absorbAll U (k, T) (ps.map (Event.data · .active) ++ [.data s st]) =
      let p := feed U { k with atStart := false } (ps.flatten ++ s)
      if st = .active then (p.1, T ++ p.2) else
        ({ (finish p.1 (T ++ p.2).getLast? st).1 with expectStarter := true }, T ++ p.2 ++ (finish p.1 (T ++ p.2).getLast? st).2)
  | [], k, T, _, s, st, hs => by
    simp only [List.map_nil, List.nil_append, absorbAll, absorb, processRaw_plain hs, List.flatten_nil]
  | p :: ps, k, T, hb, s, st, hs => by
    simp only [List.flatten_cons, List.mem_append, not_or] at hb
    rw [List.map_cons, List.cons_append, absorbAll]
    have h1 : absorb U (k, T) p .active = ((feed U { k with atStart := false } p).1, T ++ (feed U { k with atStart := false } p).2) := by
      simp only [absorb, processRaw_plain hb.1, if_true]
    rw [h1, absorb_actives ps _ _ hb.2 s st hs]
    have hat := feed_start_false (U := U) p (k := { k with atStart := false }) rfl
    have h2 : ({ (feed U { k with atStart := false } p).1 with atStart := false } : Ctl) = (feed U { k with atStart := false } p).1 := by
      generalize (feed U { k with atStart := false } p).1 = k1 at hat
      cases k1; simp only at hat; subst hat; rfl
    rw [h2, List.flatten_cons, List.append_assoc p, feed_append (a := p)]
    simp only [List.append_assoc]

/-- A group of keys arrives in some reads, the last of them marked push. -/
def typing (g : List Key × List (List Char) × List Char) : List Event := g.2.1.map (Event.data · .active) ++ [.data g.2.2 .push]

theorem finish_tame {k k'' : Ctl} {o : List Char} (h1 : finishState k = (k'', o)) {T : List Char}
    (hT : ∀ c ∈ T ++ o, isEnd c = true) : finish k T.getLast? .push = (k'', o) := by
  unfold finish
  rw [h1]
  simp only
  rw [if_neg (by simp)]
  have : endGuard (o.getLast?.or T.getLast?) = [] := by
    rw [← List.getLast?_append]
    cases h : (T ++ o).getLast? with
    | none => rfl
    | some c => simp [endGuard, hT c (List.mem_of_getLast? h)]
  rw [this, List.append_nil]

theorem group_absorb {k : Ctl} {T : List Char} {g : Bool} (hg : k.state = .ground g) (hT : ∀ c ∈ T, c.toNat ≤ 0x7f ∨ c = '�')
    {grp : List Key × List (List Char) × List Char} (hk : ∀ x ∈ grp.1, IsKey x) (hw : ∀ x ∈ grp.1.dropLast, ¬ x.waits)
    (hr : grp.2.1.flatten ++ grp.2.2 = grp.1.flatMap Key.sent) :
    ∃ k', absorbAll ucd15 (k, T) (typing grp) = (k', T ++ grp.1.flatMap Key.gives) ∧
      k'.state = .ground ((grp.1.getLast?.map Key.enters).getD g) := by
  obtain ⟨keys, ps, s⟩ := grp
  simp only at hk hw hr
  have hb : BOM ∉ ps.flatten ++ s := by
    rw [hr]
    intro h
    obtain ⟨x, hx, h⟩ := List.mem_flatMap.1 h
    exact sent_no_bom (hk x hx) h
  simp only [List.mem_append, not_or] at hb
  have hall : ∀ c ∈ T ++ keys.flatMap Key.gives, isEnd c = true := by
    intro c hc
    rcases List.mem_append.1 hc with h | h
    · exact tame_end (hT c h)
    · obtain ⟨x, hx, h⟩ := List.mem_flatMap.1 h
      exact tame_end (gives_chars (hk x hx) h)
  have key : ∃ k1 k2 o1 o2, feed ucd15 { k with atStart := false } (keys.flatMap Key.sent) = (k1, o1) ∧ finishState k1 = (k2, o2) ∧
      o1 ++ o2 = keys.flatMap Key.gives ∧ k2.state = .ground ((keys.getLast?.map Key.enters).getD g) := by
    rcases List.eq_nil_or_concat keys with rfl | ⟨ks, x, rfl⟩
    · exact ⟨_, { k with atStart := false }, _, [], rfl, by simp [finishState, hg], rfl, hg⟩
    · rw [List.concat_eq_append] at hk hw ⊢
      rw [List.dropLast_concat] at hw
      obtain ⟨k1, h1, h2⟩ := keys_feed ks (k := { k with atStart := false }) hg (fun y hy => hk y (by simp [hy])) hw
      rw [List.flatMap_append, List.flatMap_append, List.flatMap_singleton, List.flatMap_singleton, feed_append, h1]
      simp only [List.getLast?_append, List.getLast?_singleton, Option.some_or, Option.map_some, Option.getD_some]
      by_cases hx : x.waits
      · obtain ⟨k2, k3, h3, h4, h5⟩ := key_waits h2 hx
        exact ⟨k2, k3, _, _, by rw [h3, List.append_nil], h4, rfl, h5⟩
      · obtain ⟨k2, h3, h4⟩ := key_feed h2 (hk x (by simp)) hx
        exact ⟨k2, k2, _, [], by rw [h3], by simp [finishState, h4], by simp, h4⟩
  obtain ⟨k1, k2, o1, o2, e1, e2, e3, e4⟩ := key
  refine ⟨{ k2 with expectStarter := true }, ?_, e4⟩
  rw [typing, absorb_actives ps k T hb.1 s .push hb.2, hr, e1]
  simp only [reduceCtorEq, if_false]
  rw [finish_tame e2 (by rw [List.append_assoc, e3]; exact hall), ← e3]
  simp only [List.append_assoc]

theorem groups_absorb : ∀ (groups : List (List Key × List (List Char) × List Char)) {k : Ctl} {T : List Char} {g : Bool}, k.state = .ground g →
    (∀ c ∈ T, c.toNat ≤ 0x7f ∨ c = '�') → (∀ grp ∈ groups, (∀ x ∈ grp.1, IsKey x) ∧ (∀ x ∈ grp.1.dropLast, ¬ x.waits) ∧
      grp.2.1.flatten ++ grp.2.2 = grp.1.flatMap Key.sent) →
    ∃ k', absorbAll ucd15 (k, T) (groups.flatMap typing) = (k', T ++ (groups.flatMap (·.1)).flatMap Key.gives) ∧
      k'.state = .ground (((groups.flatMap (·.1)).getLast?.map Key.enters).getD g)
  | [], k, T, g, hg, _, _ => ⟨k, by simp [absorbAll], by simpa using hg⟩
  | grp :: groups, k, T, g, hg, hT, h => by
    obtain ⟨a, b, c⟩ := h grp (by simp)
    obtain ⟨k1, h1, h2⟩ := group_absorb hg hT a b c
    obtain ⟨k2, h3, h4⟩ := groups_absorb groups h2 (T := T ++ grp.1.flatMap Key.gives) (fun d hd => by
      rcases List.mem_append.1 hd with hd | hd
      · exact hT d hd
      · obtain ⟨x, hx, hd⟩ := List.mem_flatMap.1 hd
        exact gives_chars (a x hx) hd) fun y hy => h y (by simp [hy])
    refine ⟨k2, ?_, ?_⟩
    · rw [List.flatMap_cons, absorbAll_append, h1, h3]
      simp [List.append_assoc]
    · rw [h4, List.flatMap_cons, List.getLast?_append]
      cases (groups.flatMap (·.1)).getLast? <;> simp

theorem tame_same {s : List Char} (h : ∀ c ∈ s, c.toNat ≤ 0x7f ∨ c = '�') : normChain ucd15 s = s := by
  generalize hn : s.length = n
  induction n using Nat.strongRecOn generalizing s with
  | _ n ih =>
    by_cases hm : '�' ∈ s
    · obtain ⟨a, b, rfl, hna⟩ := List.eq_append_cons_of_mem hm
      rw [normChain_split textLaws15 repl_inert mark_assigned (by decide)]
      have ha : normChain ucd15 a = a := normChain_of_assigned textLaws15
        (nss_ascii ucd15 fun c hc => (h c (by simp [hc])).resolve_right fun e => hna (e ▸ hc))
        (ascii_assigned' fun c hc => (h c (by simp [hc])).resolve_right fun e => hna (e ▸ hc))
      have hb : normChain ucd15 b = b := ih b.length (by simp at hn; omega) (fun c hc => h c (by simp [hc])) rfl
      rw [ha, hb]
    · have : ∀ c ∈ s, c.toNat ≤ 0x7f := fun c hc => (h c hc).resolve_right fun e => hm (e ▸ hc)
      exact normChain_of_assigned textLaws15 (nss_ascii ucd15 this) (ascii_assigned' this)

theorem tame_segs {L : List (List Char)} (h : ∀ c ∈ L.flatten, c.toNat ≤ 0x7f ∨ c = '�') : L.flatMap (normChain ucd15) = L.flatten := by
  induction L with
  | nil => rfl
  | cons s L ih =>
    rw [List.flatMap_cons, List.flatten_cons, tame_same fun c hc => h c (by simp [hc]), ih fun c hc => h c (by
      rw [List.flatten_cons, List.mem_append]; exact .inr hc)]

theorem tame_boundary {c : Char} (h : c.toNat ≤ 0x7f ∨ c = '�') (hb : isBoundary c = true) : c = '\n' := by
  simp only [isBoundary, Bool.or_eq_true, beq_iff_eq] at hb
  rcases hb with hb | rfl
  · exact hb
  · revert h; decide

end Verif
