import Verif.Props.CutExact
import Verif.Props.Writer
import Verif.Props.Pieces
import Verif.Props.Exact

/-! Witnesses that C17, C52, C55, C69 and C79 do not hold as they stand, beside the theorems that say how far they do; and C55 exactly for BOM mode. -/

namespace Verif
open Ucd Spec

/-- C17 does not hold for all reads: here one ends between a U+34F and the unassigned scalar it belongs to. -/
theorem c17_refuted_cut : output ucd15 false false (script [['a', '͏']] ['͸', '͏', '\n']) [136, 136, 136] = ['a', '͏', '͏', '͸', '͏', '\n'] ∧
    Completes ucd15 false false (script [['a', '͏']] ['͸', '͏', '\n']) [136, 136, 136] ∧
    stream ucd15 false false ['a', '͏', '͸', '͏', '\n'] = ['a', '͏', '͸', '͏', '\n'] :=
  ⟨by decide +kernel, completes_of (by decide +kernel), by decide +kernel⟩

/-- C52 and C55 do not hold for a first read that is empty: U+FEFF is then not a byte order mark any more. -/
theorem c52_refuted_empty_read : ∃ w, Writer.newBom goodSink = some w ∧ (run ucd15 w [.str ['a', '\n']]).sink.sent = ['﻿', 'a', '\n'] ∧
    (run ucd15 (.new goodSink) [.str ['a', '\n']]).sink.sent = ['a', '\n'] ∧
    Completes ucd15 false false (script [[]] ['﻿', 'a', '\n']) [136, 136] ∧
    output ucd15 false false (script [[]] ['﻿', 'a', '\n']) [136, 136] = ['⁠', 'a', '\n'] ∧
    output ucd15 false false (script [[]] ['a', '\n']) [136, 136] = ['a', '\n'] :=
  ⟨_, rfl, by decide +kernel, by decide +kernel, completes_of (by decide +kernel), by decide +kernel, by decide +kernel⟩

/-- C69: two texts read to their ends, and reads from their concatenation that do not give it back. -/
theorem c69_refuted_cut : output ucd15 false false (script [] ['a']) [136, 136] = ['a', '\n'] ∧
    output ucd15 false false (script [] ['͸']) [136, 136] = ['͏', '͸', '͏', '\n'] ∧
    Completes ucd15 false false (script [['a', '\n', '͏']] ['͸', '͏', '\n']) [136, 136, 136] ∧
    output ucd15 false false (script [['a', '\n', '͏']] ['͸', '͏', '\n']) [136, 136, 136] = ['a', '\n', '͏', '͏', '͸', '͏', '\n'] :=
  ⟨by decide +kernel, by decide +kernel, completes_of (by decide +kernel), by decide +kernel⟩

/-- C79: pushing U+1161 behind U+1100 leaves a `TextString` that is not Basic Text. -/
theorem c79_refuted_hangul : isBasicText ucd15 ['ᄀ'] = true ∧ (StringOp.push ['ᅡ']).Ok ∧ isBasicText ucd15 ((StringOp.push ['ᅡ']).apply ['ᄀ']) = false := by
  refine ⟨by decide +kernel, ?_, by decide +kernel⟩
  show isBasicText ucd15 ['ᅡ'] = true
  decide +kernel

/-- C55, exactly, in BOM mode: what was written is read back unchanged if and only if the first read is not empty. -/
theorem c55_round_trip_bom_iff (k : Sink) (hk : k.sent = []) (w : Writer) (hw : Writer.newBom k = some w) (ops : List Op)
    (ho : ∀ op ∈ ops, op.Strict ucd15) (hne : ∀ op ∈ ops, op.isWrite = true → op.src ≠ [])
    (hh : ∀ op ∈ ops, ∀ c ∈ op.src.head?, isStart ucd15 c = true ∧ isJamoVT c = false)
    (hc : (step ucd15 (run ucd15 (.new { k with script := w.sink.script }) ops) .close).2 = .ok)
    (ha : ∀ c ∈ (run ucd15 (.new { k with script := w.sink.script }) (ops ++ [.close])).sink.sent, isAssigned ucd15 c = true)
    (nel lsps : Bool) (chunks : List (List Char)) (last : List Char) (lens : List Nat)
    (hsplit : chunks.flatten ++ last = (run ucd15 w (ops ++ [.close])).sink.sent)
    (h : Completes ucd15 nel lsps (script chunks last) lens) :
    output ucd15 nel lsps (script chunks last) lens = (run ucd15 (.new { k with script := w.sink.script }) (ops ++ [.close])).sink.sent ↔
      (chunks ++ [last]).head? ≠ some [] := by
  constructor
  · intro he
    obtain ⟨d, e1, e2, -⟩ := c52_bom_writer k w hw (ops ++ [.close])
    replace e1 := e1.trans (show k.sent ++ [BOM] ++ d = BOM :: d by rw [hk]; rfl)
    replace e2 := e2.trans (show k.sent ++ d = d by rw [hk]; rfl)
    have hv := c55_closed_stream_valid { k with script := w.sink.script } hk ops ho hne hh hc
    obtain ⟨n, hcomp⟩ := c15_reader_reaches_end nel lsps (script [] (run ucd15 (.new { k with script := w.sink.script }) (ops ++ [.close])).sink.sent)
      (fun _ => normalizationBufferSize) (fun _ => Nat.le_refl _)
    have hr := c55_round_trip_lf { k with script := w.sink.script } hk ops ho hne hh hc ha nel lsps [] _ _ (by simp) hcomp
    have hsame := (c17_same_scalars_iff nel lsps [] (run ucd15 (.new { k with script := w.sink.script }) (ops ++ [.close])).sink.sent _ hcomp).2
    rw [e2] at hv hr hcomp hsame he
    rw [e1] at hsplit
    have hbom : d.head? ≠ some BOM := valid_no_bom hv.1
    have hdrop : dropBom d = d := by
      cases d with
      | nil => rfl
      | cons c r => unfold dropBom dropOne; simp only; rw [if_neg]; intro g; exact hbom (by simpa using g)
    have hst : stream ucd15 nel lsps (BOM :: d) = stream ucd15 nel lsps d := by
      unfold stream
      rw [hdrop]; rfl
    have hiff := (c17_same_scalars_iff nel lsps chunks last lens h).1 (by
      have hs := hsame (Or.inr (by simpa using hbom))
      rw [hr] at hs
      rw [he, hsplit, hs]
      exact congrArg _ hst.symm)
    rcases hiff with g | g
    · exact g
    · rw [hsplit] at g; exact absurd rfl g
  · intro hfirst
    exact c55_round_trip_bom_partial k hk w hw ops ho hne hh hc ha nel lsps chunks last lens hsplit hfirst h

end Verif
