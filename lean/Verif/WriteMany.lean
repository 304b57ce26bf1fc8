import Verif.BytesIO

/-!
# Writing in pieces

Several `write_all`s in turn (as `io::copy` and `BufWriter` do), `write_vectored`, `write_all_vectored` (`src/text_output.rs:515-538`,
`src/text_writer.rs:212-227`) and `write_fmt`.
-/

namespace Verif
open Ucd
variable {U : Ucd}

/-- `write_all` of each piece in turn until one fails. -/
def writeChunks (U : Ucd) : Writer → List Bytes → Option (Writer × Out)
  | w, [] => some (w, .ok)
  | w, b :: bs =>
    match writeAll U w b with
    | some (w, .ok) => writeChunks U w bs
    | r => r

/-- `write_vectored` (`src/text_output.rs:515-521`; `layered_io::default_write_vectored` like the standard library's): write the first
buffer that is not empty. -/
def writeVectored (U : Ucd) (w : Writer) (bufs : List Bytes) : Writer × Out × Nat :=
  writeBytes U w ((bufs.find? fun b => !b.isEmpty).getD [])

/-- `IoSlice::advance_slices` (standard library); `none` is its panic. -/
def advance : List Bytes → Nat → Option (List Bytes)
  | [], n => if n = 0 then some [] else none
  | b :: bs, n => if b.length ≤ n then advance bs (n - b.length) else some (b.drop n :: bs)

def writeAllVectoredGo (U : Ucd) : Nat → Writer → List Bytes → Option (Writer × Out)
  | _, w, [] => some (w, .ok)
  | 0, _, _ :: _ => none
  | n + 1, w, b :: bs =>
    match writeVectored U w (b :: bs) with
    | (w, .ok, k) =>
      if k = 0 then some (w, .err)
      else match advance (b :: bs) k with
        | none => some (w, .panic)
        | some bs => writeAllVectoredGo U n w bs
    | (w, o, _) => some (w, o)

/-- `write_all_vectored` (`src/text_output.rs:531-538`; `layered_io::default_write_all_vectored` like the standard library's).  `none`
would be a loop without end. -/
def writeAllVectored (U : Ucd) (w : Writer) (bufs : List Bytes) : Option (Writer × Out) :=
  match advance bufs 0 with
  | none => some (w, .panic)
  | some bs => writeAllVectoredGo U bufs.flatten.length w bs

/-- `io::Write::write_fmt` (standard library), used by `write!`: `write_all` of each string that formatting produces. -/
def writeFmt (U : Ucd) (w : Writer) (pieces : List (List Char)) : Option (Writer × Out) := writeChunks U w (pieces.map encode)

/-! ## Theory -/

theorem writeAll_nil (w : Writer) : writeAll U w [] = some (w, .ok) := rfl

theorem writeChunks_append (w : Writer) (a b : List Bytes) : writeChunks U w (a ++ b) =
    match writeChunks U w a with
    | some (w, .ok) => writeChunks U w b
    | r => r := by
  induction a generalizing w with
  | nil => rfl
  | cons x a ih =>
    simp only [List.cons_append, writeChunks]
    cases h : writeAll U w x with
    | none => rfl
    | some r =>
      obtain ⟨w', o⟩ := r
      cases o with
      | ok => exact ih w'
      | err => rfl
      | panic => rfl

/-- Empty pieces make no difference. -/
theorem writeChunks_nonempty (w : Writer) (bs : List Bytes) : writeChunks U w (bs.filter fun b => !b.isEmpty) = writeChunks U w bs := by
  induction bs generalizing w with
  | nil => rfl
  | cons b bs ih =>
    cases b with
    | nil => simpa [writeChunks, writeAll_nil] using ih w
    | cons a b =>
      simp only [List.filter_cons, List.isEmpty_cons, Bool.not_false, if_true, writeChunks]
      cases writeAll U w (a :: b) with
      | none => rfl
      | some r =>
        obtain ⟨w', o⟩ := r
        cases o with
        | ok => exact ih w'
        | err => rfl
        | panic => rfl

theorem writeChunks_total (hU : TextLaws U) (w : Writer) (bs : List Bytes) : ∃ w' o, writeChunks U w bs = some (w', o) ∧ o ≠ .panic := by
  induction bs generalizing w with
  | nil => exact ⟨w, .ok, rfl, by simp⟩
  | cons b bs ih =>
    obtain ⟨w', o, h, hp⟩ := writeAll_total hU w b
    simp only [writeChunks, h]
    cases o with
    | ok => exact ih w'
    | err => exact ⟨w', .err, rfl, by simp⟩
    | panic => exact absurd rfl hp

/-- Only pieces that are whole UTF-8 can be written. -/
theorem writeChunks_whole (hU : TextLaws U) {bs : List Bytes} : ∀ {w w' : Writer}, writeChunks U w bs = some (w', .ok) →
    ∃ ss : List (List Char), bs = ss.map encode := by
  induction bs with
  | nil => intro w w' _; exact ⟨[], rfl⟩
  | cons b bs ih =>
    intro w w' h
    simp only [writeChunks] at h
    by_cases hb : ∃ s, b = encode s
    · obtain ⟨s, rfl⟩ := hb
      obtain ⟨w1, o, h1, hp⟩ := writeAll_total hU w (encode s)
      rw [h1] at h
      cases o with
      | ok =>
        obtain ⟨ss, rfl⟩ := ih h
        exact ⟨s :: ss, rfl⟩
      | err => simp at h
      | panic => simp at h
    · obtain ⟨w1, h1⟩ := writeAll_bad hU w fun s hs => hb ⟨s, hs⟩
      rw [h1] at h
      simp at h

/-- What `write` counts. -/
theorem writeBytes_count {w w' : Writer} {b : Bytes} {k : Nat} (hb : b ≠ []) (h : writeBytes U w b = (w', .ok, k)) : 0 < k ∧ k ≤ b.length := by
  have h1 := (decodePrefix_spec b).1
  unfold writeBytes at h
  generalize decodePrefix b = p at h h1
  obtain ⟨s, r⟩ := p
  have hl := congrArg List.length h1
  have hb' := List.length_pos_iff.2 hb
  simp only [List.length_append] at hl h
  split at h
  · simp at h; omega
  · split at h
    · simp at h; omega
    · simp at h

theorem advance_zero (bs : List Bytes) : advance bs 0 = some (bs.dropWhile List.isEmpty) := by
  induction bs with
  | nil => rfl
  | cons b bs ih =>
    cases b with
    | nil => simp [advance, ih]
    | cons a b => simp [advance]

theorem advance_some {b : Bytes} {bs : List Bytes} {k : Nat} (h : k ≤ b.length) :
    advance (b :: bs) k = some (if k = b.length then bs.dropWhile List.isEmpty else b.drop k :: bs) := by
  simp only [advance]
  by_cases hk : k = b.length
  · subst hk; simp [advance_zero]
  · rw [if_neg (by omega), if_neg hk]

theorem dropWhile_chunks (w : Writer) (bs : List Bytes) : writeChunks U w (bs.dropWhile List.isEmpty) = writeChunks U w bs := by
  induction bs with
  | nil => rfl
  | cons b bs ih =>
    cases b with
    | nil => simpa [writeChunks, writeAll_nil] using ih
    | cons a b => rfl

theorem dropWhile_head {bs : List Bytes} : ∀ b ∈ (bs.dropWhile List.isEmpty).head?, b ≠ [] := by
  induction bs with
  | nil => simp
  | cons b bs ih =>
    cases b with
    | nil => simpa using ih
    | cons a b => simp

theorem dropWhile_flatten (bs : List Bytes) : (bs.dropWhile List.isEmpty).flatten = bs.flatten := by
  induction bs with
  | nil => rfl
  | cons b bs ih =>
    cases b with
    | nil => simpa using ih
    | cons a b => rfl

theorem writeAllGo_fuel : ∀ (n m : Nat) (w : Writer) (b : Bytes), b.length ≤ n → b.length ≤ m → writeAllGo U n w b = writeAllGo U m w b := by
  intro n
  induction n with
  | zero =>
    intro m w b h _
    have : b = [] := List.length_eq_zero_iff.1 (by omega)
    subst this
    cases m <;> rfl
  | succ n ih =>
    intro m w b h h'
    cases b with
    | nil => cases m <;> rfl
    | cons a b =>
      cases m with
      | zero => simp at h'
      | succ m =>
        simp only [writeAllGo]
        cases hw : writeBytes U w (a :: b) with
        | mk w' r =>
          obtain ⟨o, k⟩ := r
          cases o with
          | ok =>
            have := writeBytes_count (by simp) hw
            simp only
            rw [ih m _ _ (by rw [List.length_drop]; simp only [List.length_cons] at h ⊢; omega)
              (by rw [List.length_drop]; simp only [List.length_cons] at h' ⊢; omega)]
          | err => rfl
          | panic => rfl

/-- One round of `write_all`. -/
theorem writeAll_step (w : Writer) {b : Bytes} (hb : b ≠ []) : writeAll U w b =
    match writeBytes U w b with
    | (w, .ok, k) => writeAll U w (b.drop k)
    | (w, o, _) => some (w, o) := by
  cases b with
  | nil => exact absurd rfl hb
  | cons a b =>
    unfold writeAll
    rw [List.length_cons, writeAllGo]
    cases hw : writeBytes U w (a :: b) with
    | mk w' r =>
      obtain ⟨o, k⟩ := r
      cases o with
      | ok =>
        have := writeBytes_count (by simp) hw
        simp only
        rw [if_neg (by omega)]
        exact writeAllGo_fuel _ _ _ _ (by rw [List.length_drop, List.length_cons]; omega) (Nat.le_refl _)
      | err => rfl
      | panic => rfl

theorem writeAllVectoredGo_eq : ∀ (n : Nat) (w : Writer) (bs : List Bytes), bs.flatten.length ≤ n → (∀ b ∈ bs.head?, b ≠ []) →
    writeAllVectoredGo U n w bs = writeChunks U w bs := by
  intro n
  induction n with
  | zero =>
    intro w bs h hh
    cases bs with
    | nil => rfl
    | cons b bs =>
      have hb := hh b (by simp)
      have := List.length_pos_iff.2 hb
      simp only [List.flatten_cons, List.length_append] at h
      omega
  | succ n ih =>
    intro w bs h hh
    cases bs with
    | nil => rfl
    | cons b bs =>
      have hb := hh b (by simp)
      have hbl := List.length_pos_iff.2 hb
      have he : b.isEmpty = false := by cases b with | nil => exact absurd rfl hb | cons => rfl
      simp only [List.flatten_cons, List.length_append] at h
      simp only [writeAllVectoredGo, writeVectored, List.find?_cons, he, Bool.not_false, Option.getD_some, writeChunks]
      rw [writeAll_step w hb]
      cases hw : writeBytes U w b with
      | mk w' r =>
        obtain ⟨o, k⟩ := r
        cases o with
        | err => rfl
        | panic => rfl
        | ok =>
          have hk := writeBytes_count hb hw
          simp only
          rw [if_neg (by omega), advance_some hk.2]
          simp only
          by_cases hkl : k = b.length
          · subst hkl
            rw [if_pos rfl, ih _ _ (by rw [dropWhile_flatten]; omega) dropWhile_head, dropWhile_chunks, List.drop_length, writeAll_nil]
          · rw [if_neg hkl]
            have hd : b.drop k ≠ [] := by
              intro h0
              have := congrArg List.length h0
              rw [List.length_drop] at this
              simp at this
              omega
            rw [ih w' (b.drop k :: bs) (by simp only [List.flatten_cons, List.length_append, List.length_drop]; omega) (by simpa using hd)]
            rfl

/-- `write_all_vectored` writes all buffers in turn. -/
theorem writeAllVectored_eq (w : Writer) (bs : List Bytes) : writeAllVectored U w bs = writeChunks U w bs := by
  unfold writeAllVectored
  rw [advance_zero]
  simp only
  rw [writeAllVectoredGo_eq _ _ _ (by rw [dropWhile_flatten]; exact Nat.le_refl _) dropWhile_head, dropWhile_chunks]

/-! ## Whole lines -/

theorem normChain_lines (hU : TextLaws U) {a b : List Char} (ha : a.getLast? = some '\n') : normChain U (a ++ b) = normChain U a ++ normChain U b := by
  rcases List.eq_nil_or_concat a with rfl | ⟨x, c, rfl⟩
  · simp at ha
  · rw [List.concat_eq_append] at *
    simp at ha
    subst ha
    have h1 := normChain_split hU (inert_lf hU) (nl_assigned hU) (by decide) x b
    have h2 := normChain_split hU (inert_lf hU) (nl_assigned hU) (by decide) x []
    rw [List.append_assoc, List.singleton_append, h1, h2, normChain_nil]
    simp

/-- A writer in the middle of nothing, over a sink that does not fail. -/
structure WIdle (w : Writer) : Prop where
  state : w.state = .ground .newline
  buffer : w.buffer = []
  ansi : w.ansi = false
  dead : w.sink.dead = false
  script : w.sink.script = []

theorem idle_new {k : Sink} (hd : k.dead = false) (hk : k.script = []) : WIdle (.new k) := ⟨rfl, rfl, rfl, hd, hk⟩
theorem idle_crlf {k : Sink} (hd : k.dead = false) (hk : k.script = []) : WIdle (.newCrlf k) := ⟨rfl, rfl, rfl, hd, hk⟩

/-- Writing a line, or several. -/
theorem writeStr_lines (hU : TextLaws U) {w : Writer} (hw : WIdle w) {s : List Char} (hl : s.getLast? = some '\n') :
    (∃ w', WIdle w' ∧ w'.expectStarter = false ∧ writeStr U w s = (w', .ok) ∧ Good U w.expectStarter (.str s) ∧
      w' = { w with expectStarter := false, sink := { w.sink with sent := w.sink.sent ++ enc w.crlf (normChain U s) } }) ∨
    ((writeStr U w s).2 = .err ∧ ¬ Good U w.expectStarter (.str s)) := by
  by_cases hg : Good U w.expectStarter (.str s)
  · have h := step_good hU (op := .str s) rfl hw.state hw.buffer hw.dead hw.script hg
    simp only [step] at h
    have hne : normChain U s ≠ [] := normChain_ne_nil hU (by rintro rfl; simp at hl)
    have hst : groundNext U .newline (.str s) = .newline := by
      show groundFrom .newline (normChain U s) = .newline
      unfold groundFrom
      rw [if_neg hne]
      simp [groundAfter, (last_normChain_nl hU).2 hl]
    rw [hst] at h
    have hs := hw.state
    refine Or.inl ⟨{ w with expectStarter := false, sink := { w.sink with sent := w.sink.sent ++ enc w.crlf (normChain U s) } }, ⟨hs, hw.buffer, hw.ansi, hw.dead, hw.script⟩, rfl, ?_, hg, rfl⟩
    rw [h]
    obtain ⟨b, cr, e, a, st, sq, sk⟩ := w
    simp only at hs
    subst hs
    rfl
  · exact Or.inr ⟨(step_bad hU (op := .str s) rfl hw.state hw.ansi hw.buffer hg).1, hg⟩

theorem head_lines {U : Ucd} (hU : TextLaws U) {s : List Char} {ss : List (List Char)} (hs : s.getLast? = some '\n') :
    (normChain U (s ++ ss.flatten)).head? = (normChain U s).head? := by
  rw [normChain_lines hU hs]
  cases h : normChain U s with
  | nil => exact absurd h (normChain_ne_nil hU (by rintro rfl; simp at hs))
  | cons c t => rfl

/-- Pieces that are whole lines are as good as all lines at once. -/
theorem writeChunks_lines (hU : TextLaws U) {ss : List (List Char)} : ∀ {w : Writer}, WIdle w → (∀ s ∈ ss, s = [] ∨ s.getLast? = some '\n') →
    (∀ w', writeChunks U w (ss.map encode) = some (w', .ok) ↔ writeAll U w (encode ss.flatten) = some (w', .ok)) := by
  induction ss with
  | nil => intro w _ _ w'; rfl
  | cons s ss ih =>
    intro w hw hss w'
    by_cases hs0 : s = []
    · subst hs0
      simp only [List.map_cons, encode_nil, writeChunks, writeAll_nil, List.flatten_cons, List.nil_append]
      exact ih hw (fun s hs => hss s (List.mem_cons_of_mem _ hs)) w'
    · have hs := (hss s (List.mem_cons_self ..)).resolve_left hs0
      have hrest : ss.flatten = [] ∨ ss.flatten.getLast? = some '\n' := by
        clear ih
        induction ss with
        | nil => exact Or.inl rfl
        | cons x ss ih =>
          rw [List.flatten_cons]
          rcases ih (fun s hs => by rcases List.mem_cons.1 hs with rfl | hs; exact hss _ (List.mem_cons_self ..); exact hss _ (List.mem_cons_of_mem _ (List.mem_cons_of_mem _ hs))) with h | h
          · rw [h, List.append_nil]; exact hss x (by simp)
          · right; simp [List.getLast?_append, h]
      have hall : (s ++ ss.flatten).getLast? = some '\n' := by
        rcases hrest with h | h
        · rw [h, List.append_nil]; exact hs
        · simp [List.getLast?_append, h]
      have hne : s ++ ss.flatten ≠ [] := by simp [hs0]
      simp only [List.map_cons, writeChunks, List.flatten_cons]
      rw [writeAll_encode w hs0, writeAll_encode w hne]
      have hgood : Good U w.expectStarter (.str (s ++ ss.flatten)) ↔ Good U w.expectStarter (.str s) ∧ ∀ c ∈ ss.flatten, okChar c = true := by
        unfold Good
        simp only [Clean, said, head_lines hU hs, List.mem_append]
        constructor
        · rintro ⟨h1, h2⟩; exact ⟨⟨fun c hc => h1 c (Or.inl hc), h2⟩, fun c hc => h1 c (Or.inr hc)⟩
        · rintro ⟨⟨h1, h2⟩, h3⟩; exact ⟨fun c hc => hc.elim (h1 c) (h3 c), h2⟩
      rcases writeStr_lines hU hw hs with ⟨w1, hw1, he1, h1, hg, hw1e⟩ | ⟨h1, hg⟩
      · rw [h1]
        simp only
        rw [ih hw1 (fun s hs => hss s (List.mem_cons_of_mem _ hs))]
        rcases writeStr_lines hU hw hall with ⟨w2, hw2, he2, h2, hg2, hw2e⟩ | ⟨h2, hg2⟩
        · have hok := (hgood.1 hg2).2
          rw [h2]
          rcases hrest with hr | hr
          · rw [hr, encode_nil, writeAll_nil]
            rw [hr, List.append_nil] at hw2e
            rw [hw1e, hw2e]
          · have hrn : ss.flatten ≠ [] := by intro h0; rw [h0] at hr; simp at hr
            rw [writeAll_encode w1 hrn]
            rcases writeStr_lines hU hw1 hr with ⟨w3, hw3, he3, h3, hg3, hw3e⟩ | ⟨h3, hg3⟩
            · rw [h3, hw3e, hw2e, hw1e]
              have : enc w.crlf (normChain U (s ++ ss.flatten)) = enc w.crlf (normChain U s) ++ enc w.crlf (normChain U ss.flatten) := by
                rw [normChain_lines hU hs]
                unfold enc; split
                · simp [toCrlf]
                · rfl
              simp [this]
            · exact absurd ⟨fun c hc => hok c hc, fun h => by rw [he1] at h; simp at h⟩ hg3
        · have hbad : ¬ ∀ c ∈ ss.flatten, okChar c = true := fun h => hg2 (hgood.2 ⟨hg, h⟩)
          have hrn : ss.flatten ≠ [] := by intro h0; apply hbad; rw [h0]; simp
          have hr := hrest.resolve_left hrn
          rw [writeAll_encode w1 hrn]
          rcases writeStr_lines hU hw1 hr with ⟨w3, hw3, he3, h3, hg3, hw3e⟩ | ⟨h3, hg3⟩
          · exact absurd hg3.1 hbad
          · constructor
            · intro h
              rw [Option.some.injEq] at h; rw [h] at h3; simp at h3
            · intro h
              rw [Option.some.injEq] at h; rw [h] at h2; simp at h2
      · rcases writeStr_lines hU hw hall with ⟨w2, hw2, he2, h2, hg2, hw2e⟩ | ⟨h2, hg2⟩
        · exact absurd (hgood.1 hg2).1 hg
        · generalize writeStr U w s = r at h1
          generalize writeStr U w (s ++ ss.flatten) = r2 at h2
          obtain ⟨wr, o⟩ := r
          obtain ⟨wr2, o2⟩ := r2
          simp only at h1 h2
          subst h1 h2
          simp

end Verif
