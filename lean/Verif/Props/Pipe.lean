import Verif.Props.BufferedReader
import Verif.Props.LineBuffered
import Verif.IsolationTheory

/-!
# From a buffered reader to a buffered writer (C152)
-/

namespace Verif
open Ucd Spec

/-- What each of the calls delivers. -/
def BufR.chunks (U : Ucd) (x : BufR) : List Nat → List Bytes
  | [] => []
  | n :: ns => (x.read U n).2.2 :: BufR.chunks U (x.read U n).1 ns

theorem chunks_bytes (ns : List Nat) : ∀ x : BufR, (x.chunks ucd15 ns).flatten = x.bytes ucd15 ns := by
  induction ns with
  | nil => intro x; rfl
  | cons n ns ih => intro x; simp [BufR.chunks, BufR.bytes, ih]

theorem chunks_short {n : Nat} (m : Nat) : ∀ x : BufR, x.Sound ucd15 → ∀ b ∈ x.chunks ucd15 (List.replicate m n), b.length ≤ n := by
  induction m with
  | zero => intro x _ b hb; simp [BufR.chunks] at hb
  | succ m ih =>
    intro x hx b hb
    obtain ⟨h1, h2, h3, -⟩ := bufr_sound textLaws15 x n hx
    rw [List.replicate_succ, BufR.chunks] at hb
    rcases List.mem_cons.1 hb with rfl | hb
    · by_cases h : ∃ k, (x.read ucd15 n).2.1 = .ok k
      · obtain ⟨k, hk⟩ := h
        obtain ⟨e1, e2⟩ := h2 k hk
        omega
      · rw [h3 fun k hk => h ⟨k, hk⟩]; simp
    · exact ih _ h1 b hb

/-- A text of whole lines is written by a new writer as it is, if it stays as it is when normalized. -/
theorem direct_text {s : List Char} (hv : isBasicText ucd15 s = true) (hs : s = [] ∨ s.getLast? = some '\n') (hi : Isolated ucd15 s) :
    ∃ w', direct ucd15 (.new goodSink) [encode s] = some (w', .ok) ∧ w'.sink.sent = s := by
  have hw : WIdle (.new goodSink) := idle_new rfl rfl
  obtain ⟨h1, -, h3⟩ := text_iff.1 hv
  have hn : normChain ucd15 s = s := normChain_isolated textLaws15 (substr_iff.1 h3).2 hi
  rw [direct_cons]
  by_cases hne : s = []
  · subst hne
    rw [encode_nil, writeAll_nil]
    exact ⟨(flush (.new goodSink)).1, by simp [direct, writeChunks]; rfl, rfl⟩
  · rw [writeAll_encode _ hne]
    rcases writeStr_lines textLaws15 hw (hs.resolve_left hne) with ⟨v, hv, -, e1, -, e2⟩ | ⟨-, e⟩
    · rw [e1]
      have hf : flush v = ({ v with expectStarter := true }, .ok) := by simp [flush, hv.state, Sink.flush, hv.dead, hv.script]
      refine ⟨{ v with expectStarter := true }, by simp [direct, writeChunks, hf], ?_⟩
      rw [e2]
      show [] ++ enc false (normChain ucd15 s) = s
      rw [hn]; rfl
    · refine absurd ⟨(substr_iff.1 h3).1, fun _ c hc => ?_⟩ e
      change (normChain ucd15 s).head? = some c at hc
      rw [hn] at hc
      exact h1 c hc

/-- C152: a caller that takes bytes from a reader behind a `BufReader`, at most `n` at a time, until there are no more, and gives each lot to a new
writer behind a `LineWriter`, and flushes it, has an output that is exactly the text that the reader delivers.  It does not matter how the
source is cut up, nor where the lots are cut, in the middle of scalars too. -/
theorem c152_pipe (cap : Nat) (hc : 136 ≤ cap) (nel lsps : Bool) (src : List Event) (hsrc : Ending src) (n : Nat) (hn : 0 < n)
    (lens : List Nat) (hl : Completes ucd15 nel lsps src lens) (l cap' : Nat) (hcap : l + n < cap')
    (hline : ∀ u v t, encode (output ucd15 nel lsps src lens) = u ++ v ++ t → 10 ∉ v → v.length ≤ l)
    (hi : Isolated ucd15 (output ucd15 nel lsps src lens)) :
    ∃ m, ((BufR.around cap nel lsps src).results ucd15 (List.replicate m n)).getLast? = some (.ok 0) ∧
      ∃ w', (BufW.around cap' (.new goodSink)).lineSession ucd15 ((BufR.around cap nel lsps src).chunks ucd15 (List.replicate m n)) = some (w', .ok) ∧
        w'.sink.sent = output ucd15 nel lsps src lens := by
  obtain ⟨m, h1, h2⟩ := c149_ends cap hc nel lsps src hsrc n hn
  refine ⟨m, h1, ?_⟩
  have hb : ((BufR.around cap nel lsps src).chunks ucd15 (List.replicate m n)).flatten = encode (output ucd15 nel lsps src lens) := by
    rw [chunks_bytes, h2 lens hl]
  have hsound : (BufR.around cap nel lsps src).Sound ucd15 := ⟨⟨_, _, _, Rel.init nel lsps⟩, by simp [BufR.around]⟩
  have hv := (c14_reader_output_valid nel lsps src hsrc.no_err lens).2.2 hl
  have hs : output ucd15 nel lsps src lens = [] ∨ (output ucd15 nel lsps src lens).getLast? = some '\n' := by
    obtain ⟨r, k, hr, hk⟩ := hl
    rw [output, run_delivered textLaws15 nel lsps hsrc.no_err]
    exact (c15_reader_ends_newline nel lsps src lens r k hr hk).1
  have hf := c151_room cap' l n hcap _ (chunks_short m _ hsound) (by rw [hb]; exact hline)
  obtain ⟨w', g1, g2⟩ := direct_text hv hs hi
  exact ⟨w', (c151_whole cap' _ _ (idle_new rfl rfl) _ hs _ hb hf).2 g1, g2⟩

/-- The hypotheses of `c152_pipe` hold of this source, whose text has only assigned scalars; for `l` one can always take the number
of all its bytes. -/
example : Ending (script [['a', '\r']] ['\n', 'e', '́']) ∧ Completes ucd15 false false (script [['a', '\r']] ['\n', 'e', '́']) [136, 136] ∧
    output ucd15 false false (script [['a', '\r']] ['\n', 'e', '́']) [136, 136] = ['a', '\n', 'é', '\n'] ∧ Isolated ucd15 ['a', '\n', 'é', '\n'] :=
  ⟨ending_script _ _, completes_of (by decide +kernel), by decide +kernel, isolated_of_assigned (by decide +kernel)⟩

/-- C152 fails without the line buffer: byte by byte the first byte of a longer scalar is refused. -/
theorem c152_refuted_direct :
    (BufR.around 136 false false (script [] ['é'])).chunks ucd15 (List.replicate 4 1) = [[0xc3], [0xa9], [10], []] ∧
    (direct ucd15 (.new goodSink) [[0xc3], [0xa9], [10], []]).map (fun r => (r.1.sink.sent, r.2)) = some ([], .err) ∧
    ((BufW.around 136 (.new goodSink)).lineSession ucd15 [[0xc3], [0xa9], [10], []]).map (fun r => (r.1.sink.sent, r.2)) = some (['é', '\n'], .ok) := by
  decide +kernel

end Verif
