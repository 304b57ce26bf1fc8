import Verif.Utf8Lossy
import Verif.WriterReader

/-!
# Whole byte strings

`std::io::Write::write_all` over the `Write` implementation of `TextWriter` (`src/text_writer.rs:201-228`), and the sequence "write
everything, then close" used by the tests (`tests/text-output.rs`) and the fuzz target (`fuzz/fuzz_targets/text.rs`).
-/

namespace Verif
variable {U : Ucd}

/-- The loop of `Write::write_all` (standard library): `none` means that `n` iterations do not suffice.  `ErrorKind::Interrupted`, on
which the loop goes on, is not modelled: a sink does not report it (simplification). -/
def writeAllGo (U : Ucd) : Nat → Writer → Bytes → Option (Writer × Out)
  | _, w, [] => some (w, .ok)
  | 0, _, _ :: _ => none
  | n + 1, w, a :: b =>
    match writeBytes U w (a :: b) with
    | (w, .ok, k) => if k = 0 then some (w, .err) else writeAllGo U n w ((a :: b).drop k)
    | (w, o, _) => some (w, o)

/-- `write_all` -/
def writeAll (U : Ucd) (w : Writer) (b : Bytes) : Option (Writer × Out) := writeAllGo U b.length w b

/-- `writer.write_all(b).and_then(|()| writer.close_into_inner())` on a fresh writer over a sink that does not fail: what the sink
has received, or `none` for `Err` (`fuzz/fuzz_targets/text.rs:46-50`; `tests/text-output.rs`).  Running out of iterations would be
`none` as well; `writeAll_total` shows that it does not happen. -/
def writeClose (U : Ucd) (w : Writer) (b : Bytes) : Option (List Char) :=
  match writeAll U w b with
  | some (w, .ok) => (closeIntoInner w).map (·.sent)
  | _ => none

theorem encode_eq_nil {s : List Char} : encode s = [] ↔ s = [] := by
  rw [← List.length_eq_zero_iff]
  have := encode_ne (s := s)
  constructor
  · intro h; exact Classical.byContradiction fun hs => this.2 hs h
  · rintro rfl; rfl

theorem writeBytes_encode (w : Writer) (s : List Char) :
    writeBytes U w (encode s) = ((writeStr U w s).1, (writeStr U w s).2, (encode s).length) := by
  have := decodePrefix_encode s [] rfl
  rw [List.append_nil] at this
  simp [writeBytes, this]

/-- Writing all of a well-formed string is one `write_str`. -/
theorem writeAll_encode (w : Writer) {s : List Char} (hs : s ≠ []) : writeAll U w (encode s) = some (writeStr U w s) := by
  cases he : encode s with
  | nil => exact absurd (encode_eq_nil.1 he) hs
  | cons a b =>
    unfold writeAll
    rw [List.length_cons, writeAllGo, ← he, writeBytes_encode]
    generalize writeStr U w s = r
    obtain ⟨w', o⟩ := r
    cases o with
    | ok =>
      simp only [List.drop_length]
      rw [if_neg (encode_ne.2 hs)]
      cases b.length <;> rfl
    | err => rfl
    | panic => rfl

/-- Writing ill-formed bytes fails. -/
theorem writeAll_bad (hU : TextLaws U) (w : Writer) {b : Bytes} (hb : ∀ s, b ≠ encode s) : ∃ w', writeAll U w b = some (w', .err) := by
  obtain ⟨h1, h2⟩ := decodePrefix_spec b
  have hr : (decodePrefix b).2 ≠ [] := fun h => hb _ (by rw [h, List.append_nil] at h1; exact h1.symm)
  have np := fun s => step_no_panic hU w (.str s)
  simp only [step] at np
  -- a single write of bytes that begin badly
  have last : ∀ n w r, decode1 r = none → r ≠ [] → ∃ w', writeAllGo U (n + 1) w r = some (w', .err) := by
    intro n w r h hne
    have hd := decodePrefix_encode [] r h
    rw [encode_nil, List.nil_append] at hd
    cases r with
    | nil => exact absurd rfl hne
    | cons a r =>
      refine ⟨w.fail, ?_⟩
      have : writeBytes U w (a :: r) = (w.fail, .err, 0) := by
        unfold writeBytes
        simp [hd, encode]
      rw [writeAllGo, this]
  generalize hp : decodePrefix b = p at h1 h2 hr
  obtain ⟨s, r⟩ := p
  simp only at h1 h2 hr
  by_cases hs : s = []
  · subst hs
    rw [encode_nil, List.nil_append] at h1
    subst h1
    cases r with
    | nil => exact absurd rfl hr
    | cons a r => exact last _ w _ h2 hr
  · cases b with
    | nil => simp at h1; exact absurd h1.2 hr
    | cons a b =>
      have hw : writeBytes U w (a :: b) = ((writeStr U w s).1, (writeStr U w s).2, (encode s).length) := by
        unfold writeBytes
        simp only [hp, if_neg hr, if_pos (encode_ne.2 hs)]
      unfold writeAll
      rw [List.length_cons, writeAllGo, hw]
      have := np s
      generalize writeStr U w s = q at this
      obtain ⟨w', o⟩ := q
      cases o with
      | panic => exact absurd rfl this
      | err => exact ⟨w', rfl⟩
      | ok =>
        simp only
        rw [if_neg (encode_ne.2 hs), ← h1, List.drop_left]
        have hl : b.length ≠ 0 := by
          have e1 := congrArg List.length h1
          have e2 := encode_ne.2 hs
          have e3 : r.length ≠ 0 := fun h => hr (List.length_eq_zero_iff.1 h)
          simp only [List.length_append, List.length_cons] at e1
          omega
        obtain ⟨m, hm⟩ := Nat.exists_eq_succ_of_ne_zero hl
        rw [hm]
        exact last m w' r h2 hr

/-- `write_all` comes to an end. -/
theorem writeAll_total (hU : TextLaws U) (w : Writer) (b : Bytes) : ∃ w' o, writeAll U w b = some (w', o) ∧ o ≠ .panic := by
  by_cases hb : ∃ s, b = encode s
  · obtain ⟨s, rfl⟩ := hb
    by_cases hs : s = []
    · subst hs; exact ⟨w, .ok, by simp [writeAll, writeAllGo, encode], by simp⟩
    · exact ⟨_, _, writeAll_encode w hs, step_no_panic hU w (.str s)⟩
  · obtain ⟨w', h⟩ := writeAll_bad hU w fun s h => hb ⟨s, h⟩
    exact ⟨w', .err, h, by simp⟩

/-- What writing everything to a fresh plain writer and closing it gives. -/
theorem writeClose_iff (hU : TextLaws U) {k : Sink} (hd : k.dead = false) (hk : k.script = []) {b : Bytes} {T : List Char} :
    writeClose U (.new k) b = some T ↔
      ∃ s, b = encode s ∧ (∀ c ∈ s, okChar c = true) ∧ (∀ c ∈ (normChain U s).head?, isStart U c = true) ∧
        (s = [] ∨ s.getLast? = some '\n') ∧ T = k.sent ++ normChain U s := by
  by_cases hb : ∃ s, b = encode s
  · obtain ⟨s, rfl⟩ := hb
    have hinj : (∃ s', encode s = encode s' ∧ (∀ c ∈ s', okChar c = true) ∧ (∀ c ∈ (normChain U s').head?, isStart U c = true) ∧
        (s' = [] ∨ s'.getLast? = some '\n') ∧ T = k.sent ++ normChain U s') ↔
        ((∀ c ∈ s, okChar c = true) ∧ (∀ c ∈ (normChain U s).head?, isStart U c = true) ∧
        (s = [] ∨ s.getLast? = some '\n') ∧ T = k.sent ++ normChain U s) := by
      constructor
      · rintro ⟨s', h, h'⟩
        have := encode_injective h
        subst this
        exact h'
      · exact fun h => ⟨s, rfl, h⟩
    rw [hinj]
    by_cases hs : s = []
    · subst hs
      have : writeAll U (.new k) (encode []) = some (.new k, .ok) := by simp [writeAll, writeAllGo, encode]
      unfold writeClose
      rw [this]
      simp [closeIntoInner, checkNl, Writer.new, normChain_nil]
      exact eq_comm
    · unfold writeClose
      rw [writeAll_encode _ hs]
      by_cases hg : Good U (Writer.new k).expectStarter (.str s)
      · have h := step_good hU (op := .str s) rfl (w := .new k) (g := .newline) rfl rfl hd hk hg
        simp only [step] at h
        rw [h]
        have hst : groundNext U .newline (.str s) = .newline ↔ s.getLast? = some '\n' := by
          show groundFrom .newline (normChain U s) = .newline ↔ _
          rw [← last_normChain_nl hU]
          unfold groundFrom
          split
          · rename_i h0
            exact absurd h0 (normChain_ne_nil hU hs)
          · constructor
            · intro h
              rcases groundAfter_newline h with h | h
              · contradiction
              · exact h
            · intro h; simp [groundAfter, h]
        simp only [closeIntoInner, checkNl, WState.ground.injEq, hst]
        by_cases hl : s.getLast? = some '\n'
        · simp only [hl, if_pos]
          simp [Writer.new, said, enc, hs]
          constructor
          · intro h'; exact ⟨hg.1, fun c hc => hg.2 rfl c hc, h'.symm⟩
          · exact fun h' => h'.2.2.symm
        · simp [hl, hs]
      · have h := (step_bad hU (op := .str s) rfl (w := .new k) (g := .newline) rfl rfl rfl hg).1
        simp only [step] at h
        generalize writeStr U (.new k) s = q at h
        obtain ⟨w', o⟩ := q
        simp only at h
        subst h
        simp only [reduceCtorEq, false_iff]
        rintro ⟨h1, h2, -⟩
        exact hg ⟨h1, fun _ c hc => h2 c hc⟩
  · obtain ⟨w', h⟩ := writeAll_bad hU (.new k) (b := b) fun s h => hb ⟨s, h⟩
    unfold writeClose
    rw [h]
    simp only [reduceCtorEq, false_iff]
    rintro ⟨s, h, -⟩
    exact hb ⟨s, h⟩

end Verif
