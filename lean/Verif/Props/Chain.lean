import Verif.Chain
import Verif.Props.Bytes
import Verif.Props.Prompt
import Verif.Props.BufferedReader

/-!
# `Read::chain` (C154)
-/

namespace Verif
open Ucd Spec

/-- Two new readers, chained. -/
def ChainR.of (nel lsps nel' lsps' : Bool) (src src' : List Event) : ChainR :=
  { done := false, t1 := .new nel lsps, s1 := src, t2 := .new nel' lsps', s2 := src' }

/-- C154: at every moment a chain has delivered a beginning of the text of the first source followed by the text of the second, whatever the
sizes of the calls and whichever of them are refused or interrupted; and when a call gives nothing, it has delivered all of both. -/
theorem c154_chain (nel lsps nel' lsps' : Bool) (src src' : List Event) (hs : Ending src) (hs' : Ending src') (ns lens lens' : List Nat)
    (hl : Completes ucd15 nel lsps src lens) (hl' : Completes ucd15 nel' lsps' src' lens') :
    let rs := (ChainR.of nel lsps nel' lsps' src src').calls ucd15 ns
    let whole := output ucd15 nel lsps src lens ++ output ucd15 nel' lsps' src' lens'
    (rs.map Prod.snd).flatten <+: encode whole ∧
    ((rs.map Prod.fst).getLast? = some (.ok 0) → (rs.map Prod.snd).flatten = encode whole) := by
  obtain ⟨a, b, h1, h2, h3⟩ := calls_chain (U := ucd15) ns (ChainR.of nel lsps nel' lsps' src src') rfl
  have p : ∀ {nel lsps src lens}, Ending src → Completes ucd15 nel lsps src lens → ∀ a,
      delivered (readMany ucd15 a (.new nel lsps) src) <+: output ucd15 nel lsps src lens :=
    fun hs hl a => c118_beginning _ _ _ hs a _ hl
  have q : ∀ {nel lsps src lens}, Ending src → Completes ucd15 nel lsps src lens → ∀ a,
      (∃ r, (readMany ucd15 a (.new nel lsps) src).getLast? = some r ∧ r.ret = .ok 0 .end_) →
      delivered (readMany ucd15 a (.new nel lsps) src) = output ucd15 nel lsps src lens := by
    intro nel lsps src lens hs hl a ⟨r, hr, h⟩
    obtain ⟨t, ht⟩ := c118_beginning nel lsps src hs a lens hl
    obtain ⟨u, hu⟩ := c118_beginning nel lsps src hs lens a ⟨r, 0, hr, h⟩
    have e : t = [] := by
      have := congrArg List.length ht
      have := congrArg List.length hu
      simp only [List.length_append, output] at *
      exact List.length_eq_zero_iff.1 (by omega)
    rw [e, List.append_nil] at ht
    exact ht
  simp only
  rw [h1, ← encode_append]
  refine ⟨?_, fun hr => ?_⟩
  · by_cases hb : b = []
    · subst hb
      obtain ⟨t, ht⟩ := p hs hl a
      refine ⟨encode (t ++ output ucd15 nel' lsps' src' lens'), ?_⟩
      rw [← encode_append, ← ht]
      simp [readMany, delivered, ChainR.of]
    · obtain ⟨t, ht⟩ := p hs' hl' b
      refine ⟨encode t, ?_⟩
      rw [← encode_append, ← ht, ← q hs hl a (h2 hb), List.append_assoc]
      rfl
  · obtain ⟨hb, hz⟩ := h3 hr
    rw [← q hs hl a (h2 hb), ← q hs' hl' b hz]
    rfl

/-- C154: so the whole that a chain delivers is Basic Text, such as one reader delivers. -/
theorem c154_text (nel lsps nel' lsps' : Bool) (src src' : List Event) (hs : Ending src) (hs' : Ending src') (ns lens lens' : List Nat)
    (hl : Completes ucd15 nel lsps src lens) (hl' : Completes ucd15 nel' lsps' src' lens')
    (hr : (((ChainR.of nel lsps nel' lsps' src src').calls ucd15 ns).map Prod.fst).getLast? = some (.ok 0)) :
    ∃ w, (((ChainR.of nel lsps nel' lsps' src src').calls ucd15 ns).map Prod.snd).flatten = encode w ∧
      isBasicText ucd15 w = true ∧ (w = [] ∨ w.getLast? = some '\n') := by
  refine ⟨_, (c154_chain nel lsps nel' lsps' src src' hs hs' ns lens lens' hl hl').2 hr, ?_⟩
  have end_ : ∀ {nel lsps src lens}, Ending src → Completes ucd15 nel lsps src lens →
      output ucd15 nel lsps src lens = [] ∨ (output ucd15 nel lsps src lens).getLast? = some '\n' := by
    intro nel lsps src lens hs hc
    obtain ⟨r, n, hr, hok⟩ := hc
    unfold output
    rw [run_delivered textLaws15 nel lsps hs.no_err]
    exact (c15_reader_ends_newline nel lsps _ lens r n hr hok).1
  refine ⟨text_append_newline textLaws15 ((c14_reader_output_valid nel lsps src hs.no_err lens).2.2 hl)
    ((c14_reader_output_valid nel' lsps' src' hs'.no_err lens').2.2 hl') (end_ hs hl), ?_⟩
  rcases end_ hs' hl' with e | e
  · rw [e, List.append_nil]; exact end_ hs hl
  · right; rw [List.getLast?_append, e]; rfl

/-- The chain of two readers is not the reader of the chained sources: the first text gets a line end, and the byte order mark of the second is dropped. -/
theorem c154_refuted_sources :
    (((ChainR.of false false false false (script [] ['a']) (script [] ['﻿', 'b'])).calls ucd15 [136, 136, 136, 136]).map Prod.snd).flatten =
      encode ['a', '\n', 'b', '\n'] ∧
    output ucd15 false false (script [['a']] ['﻿', 'b']) [136, 136, 136, 136] = ['a', '⁠', 'b', '\n'] := by
  decide +kernel

/-- The hypotheses of `c154_text` hold of these sources; a call too small is refused between. -/
example : Ending (script [['a', '\r']] ['\n', 'e', '́']) ∧ Completes ucd15 false false (script [['a', '\r']] ['\n', 'e', '́']) [136, 136] ∧
    Ending (script [] ['b']) ∧ Completes ucd15 false false (script [] ['b']) [136, 136] ∧
    (ChainR.of false false false false (script [['a', '\r']] ['\n', 'e', '́']) (script [] ['b'])).calls ucd15 [136, 5, 136, 136, 136] =
      [(.interrupted, []), (.invalidInput, []), (.ok 5, [97, 10, 0xc3, 0xa9, 10]), (.ok 2, [98, 10]), (.ok 0, [])] :=
  ⟨ending_script _ _, completes_of (by decide +kernel), ending_script _ _, completes_of (by decide +kernel), by decide +kernel⟩

/-- C154: with buffers of at least 136 bytes, of whatever sizes, a chain comes to its end. -/
theorem c154_ends (nel lsps nel' lsps' : Bool) (src src' : List Event) (hs : Ending src) (hs' : Ending src') (size : Nat → Nat)
    (hz : ∀ i, 136 ≤ size i) :
    ∃ m, (((ChainR.of nel lsps nel' lsps' src src').calls ucd15 ((List.range m).map size)).map Prod.fst).getLast? = some (.ok 0) := by
  have key : ∀ (nel lsps : Bool) (src : List Event), Ending src → ∀ i,
      ∃ m r, (readMany ucd15 ((List.range' i (m + 1)).map size) (.new nel lsps) src).getLast? = some r ∧ r.ret = .ok 0 .end_ := by
    intro nel lsps src hs i
    obtain ⟨k, r, hr, n, hn⟩ := reach textLaws15 (ctl_new (U := ucd15) nel lsps) size hz (.new nel lsps) src [] [] 1 i (Rel.init nel lsps) (by simp)
    have hnext := read_after_end textLaws15 hs hr hn (hz (i + k))
    refine ⟨k, _, ?_, hnext⟩
    rw [List.range'_1_concat, List.map_append, readMany_append, show finalState _ _ _ = (r.input, r.src) by simp [finalState, hr], List.getLast?_append]
    rfl
  obtain ⟨k, hk⟩ := key nel lsps src hs 0
  obtain ⟨m, hm⟩ := chain_reach size (.new nel' lsps') src' (key nel' lsps' src' hs') k 0 (.new nel lsps) src hk
  exact ⟨m + 1, by rw [List.range_eq_range']; exact hm⟩

/-- C154: in whatever state, and whatever the sources do, the number that a successful call returns is that of the bytes which it delivers, and a
call that fails delivers none. -/
theorem c154_count (ns : List Nat) : ∀ (c : ChainR), ∀ a ∈ c.calls ucd15 ns,
    (∀ k, a.1 = .ok k → a.2.length = k) ∧ ((∀ k, a.1 ≠ .ok k) → a.2 = []) := by
  have key : ∀ (n : Nat) (t : TextInput) (s : List Event) (k : Nat), stdRet (readWithStatus ucd15 n t s).ret = .ok k →
      (if (readWithStatus ucd15 n t s).ret.isOk then encode (readWithStatus ucd15 n t s).out else []).length = k := by
    intro n t s k h
    cases hr : (readWithStatus ucd15 n t s).ret with
    | ok j st =>
      have := ret_count hr
      rw [hr] at h
      simp only [stdRet] at h
      split at h
      · cases h
      · cases h; simp [Ret.isOk, ← this]
    | _ => rw [hr] at h; simp [stdRet] at h
  have key' : ∀ (n : Nat) (t : TextInput) (s : List Event), (∀ k, stdRet (readWithStatus ucd15 n t s).ret ≠ .ok k) →
      (if (readWithStatus ucd15 n t s).ret.isOk then encode (readWithStatus ucd15 n t s).out else []) = [] := by
    intro n t s h
    cases hr : (readWithStatus ucd15 n t s).ret with
    | ok j st =>
      have := ret_count hr
      rw [hr] at h
      simp only [stdRet] at h
      split at h
      · rename_i hz
        have : j = 0 := by simp_all
        subst this
        simp [Ret.isOk, List.length_eq_zero_iff.1 (ret_count hr).symm]
      · exact absurd rfl (h j)
    | _ => simp [Ret.isOk]
  induction ns with
  | nil => simp [ChainR.calls]
  | cons n ns ih =>
    intro c a ha
    rw [ChainR.calls] at ha
    rcases List.mem_cons.1 ha with rfl | ha
    · unfold ChainR.read ChainR.second
      split
      · exact ⟨key _ _ _, key' _ _ _⟩
      · simp only
        split
        · exact ⟨key _ _ _, key' _ _ _⟩
        · exact ⟨key _ _ _, key' _ _ _⟩
    · exact ih _ a ha

end Verif
