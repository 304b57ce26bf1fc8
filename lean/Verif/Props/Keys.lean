import Verif.Keys
import Verif.Props.Prompt
import Verif.ReaderLive

/-!
# C135: keys typed at a terminal
-/

namespace Verif
open Ucd Spec Tables

/-- C135: every key gives its own text, whatever was typed before and after it, for all the keys of the document and all codes up to U+7F,
however what they send is cut into reads, if a read marked push comes behind those whose meaning depends on what follows (Escape, CR, FF, and
Alt with a bracket).  A newline is added at the end if the last key is not Enter. -/
theorem c135_keys_partial (nel lsps : Bool) (groups : List (List Key × List (List Char) × List Char))
    (h : ∀ grp ∈ groups, (∀ x ∈ grp.1, IsKey x) ∧ (∀ x ∈ grp.1.dropLast, ¬ x.waits) ∧ grp.2.1.flatten ++ grp.2.2 = grp.1.flatMap Key.sent)
    (lens : List Nat) (hc : Completes ucd15 nel lsps (groups.flatMap typing ++ [.data [] .end_]) lens) :
    output ucd15 nel lsps (groups.flatMap typing ++ [.data [] .end_]) lens = (groups.flatMap (·.1)).flatMap Key.gives ++
      if ∀ x ∈ (groups.flatMap (·.1)).getLast?, x.enters = true then [] else ['\n'] := by
  obtain ⟨r, n, hr, hok⟩ := hc
  have hend : Ending (groups.flatMap typing ++ [.data [] .end_]) := ⟨_, [], rfl, by
    intro e he
    obtain ⟨grp, -, he⟩ := List.mem_flatMap.1 he
    simp only [typing, List.mem_append, List.mem_map, List.mem_singleton] at he
    rcases he with ⟨s, -, rfl⟩ | rfl
    · exact ⟨s, .active, rfl, by simp⟩
    · exact ⟨_, .push, rfl, by simp⟩⟩
  obtain ⟨k', h1, h2⟩ := groups_absorb groups (k := (TextInput.new nel lsps).ctl) (T := []) (g := true) rfl (by simp) h
  rw [List.nil_append] at h1
  have htame : ∀ c ∈ (groups.flatMap (·.1)).flatMap Key.gives, c.toNat ≤ 0x7f ∨ c = '�' := by
    intro c hc
    obtain ⟨x, hx, hc⟩ := List.mem_flatMap.1 hc
    obtain ⟨grp, hgrp, hx⟩ := List.mem_flatMap.1 hx
    exact gives_chars ((h grp hgrp).1 x hx) hc
  have htot : (absorbAll ucd15 ((TextInput.new nel lsps).ctl, []) (groups.flatMap typing ++ [.data [] .end_])).2 =
      (groups.flatMap (·.1)).flatMap Key.gives ++ if ∀ x ∈ (groups.flatMap (·.1)).getLast?, x.enters = true then [] else ['\n'] := by
    rw [absorbAll_append, h1]
    revert htame h2
    generalize (groups.flatMap (·.1)).flatMap Key.gives = T
    intro h2 htame
    simp only [absorbAll, absorb, processRaw_nil, List.append_nil, finish, finishState, h2, reduceCtorEq, if_false, true_and]
    have hg : endGuard T.getLast? = [] := by
      cases hl : T.getLast? with
      | none => rfl
      | some c => simp [endGuard, tame_end (htame c (List.mem_of_getLast? hl))]
    simp only [List.getLast?_nil, Option.none_or, hg, List.nil_append]
    cases hl : (groups.flatMap (·.1)).getLast? with
    | none => simp
    | some x =>
      simp only [Option.map_some, Option.getD_some, Option.mem_some_iff, forall_eq']
      cases x.enters <;> simp
  rw [output, (run_exact textLaws15 hend hr hok).1, ← htot, ← segments_total _ textLaws15 hend]
  have hall : ∀ c ∈ (segments ucd15 nel lsps (groups.flatMap typing ++ [.data [] .end_])).flatten, c.toNat ≤ 0x7f ∨ c = '�' := by
    rw [segments_total _ textLaws15 hend, htot]
    intro c hc
    rcases List.mem_append.1 hc with hc | hc
    · exact htame c hc
    · split at hc
      · simp at hc
      · simp only [List.mem_singleton] at hc; subst hc; left; decide
  exact tame_segs hall

/-- C135: and when a call reports the push behind them, what has been delivered of the keys is the text up to the last newline: what was typed
behind the last Enter is kept back. -/
theorem c135_delivered (nel lsps : Bool) (groups : List (List Key × List (List Char) × List Char))
    (h : ∀ grp ∈ groups, (∀ x ∈ grp.1, IsKey x) ∧ (∀ x ∈ grp.1.dropLast, ¬ x.waits) ∧ grp.2.1.flatten ++ grp.2.2 = grp.1.flatMap Key.sent)
    (rest : List Event) (hne : rest ≠ []) (lens : List Nat) (r : ReadResult) (n : Nat)
    (hr : (readMany ucd15 lens (.new nel lsps) (groups.flatMap typing ++ rest)).getLast? = some r) (hsrc : r.src = rest) (hok : r.ret = .ok n .push) :
    ∃ x, (groups.flatMap (·.1)).flatMap Key.gives = written (readMany ucd15 lens (.new nel lsps) (groups.flatMap typing ++ rest)) ++ x ∧
      '\n' ∉ x ∧ (written (readMany ucd15 lens (.new nel lsps) (groups.flatMap typing ++ rest)) = [] ∨
        (written (readMany ucd15 lens (.new nel lsps) (groups.flatMap typing ++ rest))).getLast? = some '\n') := by
  obtain ⟨-, -, -, -, hidle⟩ := run_last textLaws15 (Rel.init nel lsps) hr hok (by simp)
  obtain ⟨es, ⟨m, hm, hm'⟩, h2, -, -⟩ := run_rel textLaws15 lens (.new nel lsps) (groups.flatMap typing ++ rest) [] [] (Rel.init nel lsps)
  have hf : finalState (.new nel lsps) (groups.flatMap typing ++ rest) (readMany ucd15 lens (.new nel lsps) (groups.flatMap typing ++ rest)) = (r.input, r.src) := by
    unfold finalState; rw [hr]
  rw [hf] at hm hm' h2
  simp only [hsrc] at hm hm' h2
  have hz : m = 0 := by
    by_cases hz : m = 0
    · exact hz
    · exact absurd (hm' (by omega)) hne
  subst hz
  rw [List.replicate_zero, List.append_nil] at hm
  have hes := List.append_cancel_right hm
  subst hes
  obtain ⟨a1, a2⟩ := h2.segs.idle hidle
  simp only [List.nil_append] at a1 a2
  have htot := segAll_total (U := ucd15) (groups.flatMap typing) ((TextInput.new nel lsps).ctl, []) ([], []) rfl
  have hidle2 := segAll_idle (U := ucd15) (groups.flatMap typing) ((TextInput.new nel lsps).ctl, []) ([], []) (by simp)
  have hseg := segAll_seg (U := ucd15) (groups.flatMap typing) ((TextInput.new nel lsps).ctl, []) ([], []) (by simp)
  obtain ⟨k', h3, -⟩ := groups_absorb groups (k := (TextInput.new nel lsps).ctl) (T := []) (g := true) rfl (by simp) h
  rw [h3, List.nil_append] at htot
  simp only at htot
  generalize segAll ucd15 ((TextInput.new nel lsps).ctl, []) ([], []) (groups.flatMap typing) = S at *
  have hall : ∀ c ∈ S.1.flatten, c.toNat ≤ 0x7f ∨ c = '�' := by
    intro c hc
    have : c ∈ (groups.flatMap (·.1)).flatMap Key.gives := by rw [← htot]; simp only [List.mem_append]; exact .inl hc
    obtain ⟨x, hx, hc⟩ := List.mem_flatMap.1 this
    obtain ⟨grp, hgrp, hx⟩ := List.mem_flatMap.1 hx
    exact gives_chars ((h grp hgrp).1 x hx) hc
  have hw : written (readMany ucd15 lens (.new nel lsps) (groups.flatMap typing ++ rest)) = S.1.flatten := by
    rw [a1]; exact tame_segs hall
  rw [hw]
  refine ⟨S.2, htot.symm, ?_, ?_⟩
  · intro hn
    have := hidle2 '\n' hn
    simp [isBoundary] at this
  · rcases List.eq_nil_or_concat S.1 with h0 | ⟨init, s, h0⟩
    · rw [h0]; exact .inl rfl
    · right
      obtain ⟨x, b, rfl, hb⟩ := hseg s (by rw [h0]; simp)
      rw [h0] at hall ⊢
      rw [List.concat_eq_append] at hall ⊢
      rw [tame_boundary (hall b (by simp)) hb]
      simp

/-- C135 does not hold in full.  Keys that are not marked off change each other: Escape takes the letter typed behind it, CR and U+A are one
Enter together.  Nothing is delivered before Enter; and keys cannot be told apart: Ctrl-A and Ctrl-B give the same, Alt with one letter and with another, Up and
Down, Escape and Home. -/
theorem c135_refuted :
    output ucd15 false false [.data [ESC] .active, .data ['a'] .active, .data [] .end_] [136, 136, 136] = ['\n'] ∧
    output ucd15 false false [.data ['\r'] .active, .data ['\n'] .active, .data [] .end_] [136, 136, 136] = ['\n'] ∧
    (readMany ucd15 [136, 136] (.new false false) [.data ['a'] .push, .data ['\n'] .push, .data [] .end_]).map (fun r => (r.ret, r.out)) =
      [(.ok 0 .push, []), (.ok 2 .push, ['a', '\n'])] ∧
    (Key.code false '\x01').gives = (Key.code false '\x02').gives ∧ (Key.code true 'a').gives = (Key.code true 'b').gives ∧
    (Key.seq [ESC, '[', 'A']).gives = (Key.seq [ESC, '[', 'B']).gives ∧ (Key.code false ESC).gives = (Key.seq [ESC, '[', 'H']).gives := by
  decide +kernel

/-- C135: which keys give nothing, and which a replacement character: Escape, Alt with the codes from U+40 to U+7E and with Ctrl-X, and the keys
that send sequences; the control codes but Tab, Enter, Ctrl-L and Escape, and Backspace. -/
theorem c135_lost (key : Key) (hk : IsKey key) :
    (key.gives = [] ↔ (∃ s, key = .seq s) ∨ (∃ alt, key = .code alt ESC) ∨ ∃ c, key = .code true c ∧ (c = CAN ∨ (0x40 ≤ c.toNat ∧ c.toNat ≤ 0x7e))) ∧
    (key.gives = ['�'] ↔ ∃ alt c, key = .code alt c ∧ (c.toNat < 0x20 ∨ c.toNat = 0x7f) ∧ c ∉ ['\t', '\n', '\r', FF, ESC] ∧ ¬ (alt = true ∧ c = CAN)) := by
  cases key with
  | seq s => simp [Key.gives]
  | code alt c =>
    have hc : c.toNat ≤ 0x7f := hk
    have table : ∀ (alt : Bool) (n : Fin 128), ((Key.code alt (Char.ofNat n.val)).gives = [] ↔ Char.ofNat n.val = ESC ∨ (alt = true ∧ (Char.ofNat n.val = CAN ∨
        (0x40 ≤ (Char.ofNat n.val).toNat ∧ (Char.ofNat n.val).toNat ≤ 0x7e)))) ∧
        ((Key.code alt (Char.ofNat n.val)).gives = ['�'] ↔ ((Char.ofNat n.val).toNat < 0x20 ∨ (Char.ofNat n.val).toNat = 0x7f) ∧
          Char.ofNat n.val ∉ ['\t', '\n', '\r', FF, ESC] ∧ ¬ (alt = true ∧ Char.ofNat n.val = CAN)) := by decide +kernel
    have := table alt ⟨c.toNat, by omega⟩
    simp only [Char.ofNat_toNat] at this
    rw [this.1, this.2]
    constructor
    · constructor
      · rintro (rfl | ⟨rfl, h⟩)
        · exact .inr (.inl ⟨alt, rfl⟩)
        · exact .inr (.inr ⟨c, rfl, h⟩)
      · rintro (⟨s, h⟩ | ⟨a, h⟩ | ⟨d, h, h'⟩)
        · cases h
        · cases h; exact .inl rfl
        · cases h; exact .inr ⟨rfl, h'⟩
    · constructor
      · exact fun h => ⟨alt, c, rfl, h⟩
      · rintro ⟨a, d, h, h'⟩; cases h; exact h'

/-- Two groups: `h`, Up, Alt-x, Ctrl-A, Escape; then `i` and CR. -/
example : let groups : List (List Key × List (List Char) × List Char) :=
      [([.code false 'h', .seq [ESC, '[', 'A'], .code true 'x', .code false '\x01', .code false ESC], [['h', ESC], ['[', 'A', ESC, 'x']], ['\x01', ESC]),
       ([.code true '5', .code false '\r'], [], [ESC, '5', '\r'])]
    (∀ grp ∈ groups, (∀ x ∈ grp.1.dropLast, ¬ x.waits) ∧ grp.2.1.flatten ++ grp.2.2 = grp.1.flatMap Key.sent) ∧
    endsRun (readMany ucd15 [136, 136, 136, 136, 136] (.new false false) (groups.flatMap typing ++ [.data [] .end_])) = true ∧
    output ucd15 false false (groups.flatMap typing ++ [.data [] .end_]) [136, 136, 136, 136, 136] = ['h', '�', '5', '\n'] := by
  decide +kernel

example : IsKey (.seq [ESC, '[', 'A']) := by
  refine ⟨[.lit ESC, .lit '[', .lit 'A'], by decide +kernel, by decide, by decide, [ESC], ['[', 'A'], rfl, rfl, ['['], ['A'], rfl, rfl, ['A'], [], rfl, rfl, rfl⟩

end Verif
