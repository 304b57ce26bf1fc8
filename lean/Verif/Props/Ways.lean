import Verif.Ways
import Verif.Props.Fill

/-!
# C137: the ways to read may be mixed
-/

namespace Verif
open Ucd Spec

/-- A buffer that is passed as a `TextSubstr` holds one. -/
def Way.Given : Way → Prop
  | .fill buf => isBasicTextSubstr ucd15 buf = true
  | .fillStatus buf => isBasicTextSubstr ucd15 buf = true
  | _ => True

theorem readExact_mono {U : Ucd} : ∀ (fuel : Nat) {fuel' : Nat}, fuel ≤ fuel' → ∀ {len : Nat} {t : TextInput} {src : List Event} {x : ExactResult},
    readExact U fuel len t src = some x → readExact U fuel' len t src = some x := by
  intro fuel
  induction fuel with
  | zero => intro _ _ len t src x h; simp [readExact] at h
  | succ fuel ih =>
    intro fuel' hf len t src x h
    obtain ⟨f, rfl⟩ : ∃ f, fuel' = f + 1 := ⟨fuel' - 1, by omega⟩
    rw [readExact] at h ⊢
    split at h
    · rw [if_pos ‹_›]; exact h
    · rw [if_neg ‹_›]
      simp only at h ⊢
      cases hs : stdRet (readWithStatus U len t src).ret with
      | ok n =>
        cases n with
        | zero => rw [hs] at h; exact h
        | succ n =>
          rw [hs] at h
          simp only at h ⊢
          obtain ⟨y, hy, rfl⟩ := Option.map_eq_some_iff.1 h
          rw [ih (by omega) hy]; rfl
      | interrupted =>
        rw [hs] at h
        simp only at h ⊢
        obtain ⟨y, hy, rfl⟩ := Option.map_eq_some_iff.1 h
        rw [ih (by omega) hy]; rfl
      | _ => rw [hs] at h; exact h

theorem readExactStatus_mono {U : Ucd} : ∀ (fuel : Nat) {fuel' : Nat}, fuel ≤ fuel' → ∀ {len : Nat} {t : TextInput} {src : List Event} {x : FillResult},
    readExactStatus U fuel len t src = some x → readExactStatus U fuel' len t src = some x := by
  intro fuel
  induction fuel with
  | zero => intro _ _ len t src x h; simp [readExactStatus] at h
  | succ fuel ih =>
    intro fuel' hf len t src x h
    obtain ⟨f, rfl⟩ : ∃ f, fuel' = f + 1 := ⟨fuel' - 1, by omega⟩
    rw [readExactStatus] at h ⊢
    split at h
    · rw [if_pos ‹_›]; exact h
    · rw [if_neg ‹_›]
      simp only at h ⊢
      cases hs : (readWithStatus U len t src).ret with
      | ok n st =>
        rw [hs] at h
        simp only at h ⊢
        split at h
        · rw [if_pos ‹_›]; exact h
        · rw [if_neg ‹_›]
          obtain ⟨y, hy, rfl⟩ := Option.map_eq_some_iff.1 h
          rw [ih (by omega) hy]; rfl
      | _ => rw [hs] at h; exact h

theorem fillExact_mono {U : Ucd} : ∀ (fuel : Nat) {fuel' : Nat}, fuel ≤ fuel' → ∀ {buf : List Char} {t : TextInput} {src : List Event} {x : FillResult},
    fillExact U fuel buf t src = some x → fillExact U fuel' buf t src = some x := by
  intro fuel
  induction fuel with
  | zero => intro _ _ len t src x h; simp [fillExact] at h
  | succ fuel ih =>
    intro fuel' hf buf t src x h
    obtain ⟨f, rfl⟩ : ∃ f, fuel' = f + 1 := ⟨fuel' - 1, by omega⟩
    rw [fillExact] at h ⊢
    split at h
    · rw [if_pos ‹_›]; exact h
    · rw [if_neg ‹_›]
      simp only at h ⊢
      cases hs : stdRet (readWithStatus U (encode buf).length t src).ret with
      | ok n =>
        cases n with
        | zero => rw [hs] at h; exact h
        | succ n =>
          rw [hs] at h
          simp only at h ⊢
          cases hq : splitAtMut U (bufferAfter (encode buf) (readWithStatus U (encode buf).length t src)) (n + 1) with
          | none => rw [hq] at h; exact h
          | some rest =>
            rw [hq] at h
            simp only at h ⊢
            obtain ⟨y, hy, rfl⟩ := Option.map_eq_some_iff.1 h
            rw [ih (by omega) hy]; rfl
      | _ => rw [hs] at h; exact h

theorem fillExactStatus_mono {U : Ucd} : ∀ (fuel : Nat) {fuel' : Nat}, fuel ≤ fuel' → ∀ {buf : List Char} {t : TextInput} {src : List Event} {x : FillResult},
    fillExactStatus U fuel buf t src = some x → fillExactStatus U fuel' buf t src = some x := by
  intro fuel
  induction fuel with
  | zero => intro _ _ len t src x h; simp [fillExactStatus] at h
  | succ fuel ih =>
    intro fuel' hf buf t src x h
    obtain ⟨f, rfl⟩ : ∃ f, fuel' = f + 1 := ⟨fuel' - 1, by omega⟩
    rw [fillExactStatus] at h ⊢
    split at h
    · rw [if_pos ‹_›]; exact h
    · rw [if_neg ‹_›]
      simp only at h ⊢
      cases hs : (readWithStatus U (encode buf).length t src).ret with
      | ok n st =>
        rw [hs] at h
        simp only at h ⊢
        cases hq : splitAtMut U (bufferAfter (encode buf) (readWithStatus U (encode buf).length t src)) n with
        | none => rw [hq] at h; exact h
        | some rest =>
          rw [hq] at h
          simp only at h ⊢
          split at h
          · rw [if_pos ‹_›]; exact h
          · rw [if_neg ‹_›]
            obtain ⟨y, hy, rfl⟩ := Option.map_eq_some_iff.1 h
            rw [ih (by omega) hy]; rfl
      | _ => rw [hs] at h; exact h

theorem call_mono {U : Ucd} {fuel fuel' : Nat} (hf : fuel ≤ fuel') {t : TextInput} {src : List Event} {w : Way} {x : WayResult}
    (h : w.call U fuel t src = some x) : w.call U fuel' t src = some x := by
  cases w with
  | exact len =>
    obtain ⟨y, hy, rfl⟩ := Option.map_eq_some_iff.1 h
    simp only [Way.call, readExact_mono _ hf hy, Option.map_some]
  | exactStatus len =>
    obtain ⟨y, hy, rfl⟩ := Option.map_eq_some_iff.1 h
    simp only [Way.call, readExactStatus_mono _ hf hy, Option.map_some]
  | fill buf =>
    obtain ⟨y, hy, rfl⟩ := Option.map_eq_some_iff.1 h
    simp only [Way.call, fillExact_mono _ hf hy, Option.map_some]
  | fillStatus buf =>
    obtain ⟨y, hy, rfl⟩ := Option.map_eq_some_iff.1 h
    simp only [Way.call, fillExactStatus_mono _ hf hy, Option.map_some]
  | _ => exact h

theorem mixed_mono {U : Ucd} {fuel fuel' : Nat} (hf : fuel ≤ fuel') : ∀ {ws : List Way} {t : TextInput} {src : List Event} {xs : List WayResult},
    mixed U fuel ws t src = some xs → mixed U fuel' ws t src = some xs := by
  intro ws
  induction ws with
  | nil => intro t src xs h; exact h
  | cons w ws ih =>
    intro t src xs h
    rw [mixed] at h ⊢
    cases hx : w.call U fuel t src with
    | none => rw [hx] at h; cases h
    | some x =>
      rw [hx] at h
      simp only at h
      obtain ⟨ys, hy, rfl⟩ := Option.map_eq_some_iff.1 h
      rw [call_mono hf hx]
      simp only
      rw [ih hy]; rfl

/-- With a buffer of a constant length the reads reach the end; the run is given by its number. -/
theorem reach_const {t : TextInput} {src : List Event} (ht : Reached t src) {N : Nat} (hN : normalizationBufferSize ≤ N) :
    ∃ n r, (readMany ucd15 (List.replicate n N) t src).getLast? = some r ∧ ∃ k, r.ret = .ok k .end_ := by
  obtain ⟨k0, em, es, hk, hrel⟩ := ht.rel
  obtain ⟨n, r, hr, k, hok⟩ := reach textLaws15 hk (fun _ => N) (fun _ => hN) t src em es 1 0 hrel (by simp)
  have hmap : ∀ n i, (List.range' i n).map (fun _ => N) = List.replicate n N := by
    intro n
    induction n with
    | zero => intro i; rfl
    | succ n ih => intro i; rw [List.range'_succ, List.map_cons, ih]; rfl
  rw [hmap] at hr
  exact ⟨n, r, hr, k, hok⟩

theorem reach_step {t : TextInput} {src : List Event} {N n : Nat} {r : ReadResult} {k : Nat}
    (hr : (readMany ucd15 (List.replicate (n + 1) N) t src).getLast? = some r) (hok : r.ret = .ok k .end_)
    (h : ∀ k, (readWithStatus ucd15 N t src).ret ≠ .ok k .end_) :
    (readMany ucd15 (List.replicate n N) (readWithStatus ucd15 N t src).input (readWithStatus ucd15 N t src).src).getLast? = some r := by
  rw [List.replicate_succ, readMany] at hr
  cases n with
  | zero =>
    simp only [List.replicate_zero, readMany, List.getLast?_singleton, Option.some.injEq] at hr
    rw [← hr] at hok
    exact absurd hok (h k)
  | succ n =>
    rw [List.replicate_succ, readMany, List.getLast?_cons_cons] at hr
    rw [List.replicate_succ, readMany]
    exact hr

theorem readExact_returns (N : Nat) : ∀ (t : TextInput) (src : List Event), Reached t src → ∃ fuel x, readExact ucd15 fuel N t src = some x := by
  induction N using Nat.strongRecOn with
  | ind N ih =>
    intro t src ht
    by_cases h0 : N = 0
    · exact ⟨1, _, by rw [readExact, if_pos h0]⟩
    by_cases hl : N < normalizationBufferSize
    · obtain ⟨nel, lsps, s, lens, h⟩ := ht
      have := (c19_read_total nel lsps s lens t src h N).2.1 hl
      exact ⟨1, _, by rw [readExact, if_neg h0, this]; rfl⟩
    obtain ⟨n, r, hr, k, hok⟩ := reach_const ht (N := N) (by omega)
    induction n generalizing t src with
    | zero => simp [readMany] at hr
    | succ n ihn =>
      cases hs : stdRet (readWithStatus ucd15 N t src).ret with
      | ok m =>
        cases m with
        | zero => exact ⟨1, { ret := .unexpectedEof, out := _, input := _, src := _ }, by rw [readExact, if_neg h0]; simp only [hs]; rfl⟩
        | succ m =>
          obtain ⟨fuel, x, hx⟩ := ih (N - (m + 1)) (by omega) _ _ (ht.read N)
          exact ⟨fuel + 1, _, by rw [readExact, if_neg h0]; simp only [hs]; rw [hx]; rfl⟩
      | interrupted =>
        have hne : ∀ k, (readWithStatus ucd15 N t src).ret ≠ .ok k .end_ := by
          intro k hk
          rw [hk] at hs
          simp [stdRet] at hs
        obtain ⟨fuel, x, hx⟩ := ihn _ _ (ht.read N) (reach_step hr hok hne)
        exact ⟨fuel + 1, _, by rw [readExact, if_neg h0]; simp only [hs]; rw [hx]; rfl⟩
      | invalidInput => exact ⟨1, { ret := .invalidInput, out := _, input := _, src := _ }, by rw [readExact, if_neg h0]; simp only [hs]; rfl⟩
      | sourceError => exact ⟨1, { ret := .sourceError, out := _, input := _, src := _ }, by rw [readExact, if_neg h0]; simp only [hs]; rfl⟩
      | panic => exact ⟨1, { ret := .panic, out := _, input := _, src := _ }, by rw [readExact, if_neg h0]; simp only [hs]; rfl⟩

theorem readExactStatus_returns (N : Nat) : ∀ (t : TextInput) (src : List Event), Reached t src →
    ∃ fuel x, readExactStatus ucd15 fuel N t src = some x := by
  induction N using Nat.strongRecOn with
  | ind N ih =>
    intro t src ht
    by_cases h0 : N = 0
    · exact ⟨1, _, by rw [readExactStatus, if_pos h0]⟩
    by_cases hl : N < normalizationBufferSize
    · obtain ⟨nel, lsps, s, lens, h⟩ := ht
      have := (c19_read_total nel lsps s lens t src h N).2.1 hl
      exact ⟨1, _, by rw [readExactStatus, if_neg h0, this]⟩
    obtain ⟨n, r, hr, k, hok⟩ := reach_const ht (N := N) (by omega)
    induction n generalizing t src with
    | zero => simp [readMany] at hr
    | succ n ihn =>
      cases hs : (readWithStatus ucd15 N t src).ret with
      | ok m st =>
        by_cases he : st = .end_
        · exact ⟨1, { ret := if N - m = 0 then .ok st else .unexpectedEof, out := _, input := _, src := _ }, by
            rw [readExactStatus, if_neg h0]; simp only [hs]; rw [if_pos he]⟩
        · have hrec : ∃ fuel x, readExactStatus ucd15 fuel (N - m) (readWithStatus ucd15 N t src).input (readWithStatus ucd15 N t src).src = some x := by
            by_cases hm : m = 0
            · subst hm
              refine ihn _ _ (ht.read N) (reach_step hr hok ?_)
              intro k hk
              rw [hs] at hk
              injection hk with _ hk
              exact he hk
            · exact ih (N - m) (by omega) _ _ (ht.read N)
          obtain ⟨fuel, x, hx⟩ := hrec
          exact ⟨fuel + 1, _, by rw [readExactStatus, if_neg h0]; simp only [hs]; rw [if_neg he, hx]; rfl⟩
      | invalidInput => exact ⟨1, { ret := .invalidInput, out := _, input := _, src := _ }, by rw [readExactStatus, if_neg h0]; simp only [hs]; rfl⟩
      | sourceError => exact ⟨1, { ret := .sourceError, out := _, input := _, src := _ }, by rw [readExactStatus, if_neg h0]; simp only [hs]; rfl⟩
      | panic => exact ⟨1, { ret := .panic, out := _, input := _, src := _ }, by rw [readExactStatus, if_neg h0]; simp only [hs]; rfl⟩

theorem Reached.final {t : TextInput} {src : List Event} (h : Reached t src) (lens : List Nat) :
    Reached (finalState t src (readMany ucd15 lens t src)).1 (finalState t src (readMany ucd15 lens t src)).2 := by
  induction lens generalizing t src with
  | nil => exact h
  | cons len lens ih => rw [readMany, finalState_cons]; exact ih (h.read len)

/-- C137: every call returns, so every mixture does, whatever the source. -/
theorem c137_returns (nel lsps : Bool) (src : List Event) (ws : List Way) (hw : ∀ w ∈ ws, w.Given) :
    ∃ fuel xs, mixed ucd15 fuel ws (.new nel lsps) src = some xs := by
  have key : ∀ (ws : List Way), (∀ w ∈ ws, w.Given) → ∀ (t : TextInput) (src : List Event), Reached t src → ∃ fuel xs, mixed ucd15 fuel ws t src = some xs := by
    intro ws
    induction ws with
    | nil => intro _ t src _; exact ⟨0, [], rfl⟩
    | cons w ws ih =>
      intro hw t src ht
      have hcall : ∃ fuel x, w.call ucd15 fuel t src = some x := by
        have hg := hw w (by simp)
        cases w with
        | exact len => obtain ⟨f, x, hx⟩ := readExact_returns len t src ht; exact ⟨f, _, Option.map_eq_some_iff.2 ⟨x, hx, rfl⟩⟩
        | exactStatus len => obtain ⟨f, x, hx⟩ := readExactStatus_returns len t src ht; exact ⟨f, _, Option.map_eq_some_iff.2 ⟨x, hx, rfl⟩⟩
        | fill buf => obtain ⟨x, hx⟩ := c96_returns buf t src ht hg; exact ⟨_, _, Option.map_eq_some_iff.2 ⟨x, hx, rfl⟩⟩
        | fillStatus buf => obtain ⟨f, x, hx⟩ := c96_status_returns buf t src ht hg; exact ⟨f, _, Option.map_eq_some_iff.2 ⟨x, hx, rfl⟩⟩
        | _ => exact ⟨0, _, rfl⟩
      obtain ⟨f, x, hx⟩ := hcall
      obtain ⟨lens, ha⟩ := way_amounts hx
      have hr : Reached x.input x.src := by
        have := ht.final lens
        rw [← ha.state] at this
        exact this
      obtain ⟨g, xs, hxs⟩ := ih (fun w hw' => hw w (by simp [hw'])) _ _ hr
      refine ⟨max f g, x :: xs, ?_⟩
      rw [mixed, call_mono (Nat.le_max_left f g) hx]
      simp only
      rw [mixed_mono (Nat.le_max_right f g) hxs]; rfl
  exact key ws hw _ _ ⟨nel, lsps, src, [], rfl⟩

/-- C137: once a call says that the source is at its end, the buffers of all the calls have received the text that reading with
status alone delivers. -/
theorem c137_all (nel lsps : Bool) (src : List Event) (hs : Ending src) (ws : List Way) (fuel : Nat) (xs : List WayResult)
    (h : mixed ucd15 fuel ws (.new nel lsps) src = some xs) (he : ∃ x ∈ xs.getLast?, x.ended = true) (lens : List Nat)
    (hc : Completes ucd15 nel lsps src lens) : received xs = output ucd15 nel lsps src lens := by
  obtain ⟨l, h1, -, h3, -⟩ := mixed_amounts ws _ _ _ h
  obtain ⟨r, n, hr, hn⟩ := h3 he
  obtain ⟨r', n', hr', hn'⟩ := hc
  have hne : ∀ e ∈ src, e ≠ .err := by
    obtain ⟨es, s, rfl, hes⟩ := hs
    intro e he
    rcases List.mem_append.1 he with he | he
    · obtain ⟨s', st, rfl, -⟩ := hes e he; simp
    · simp only [List.mem_singleton] at he; subst he; simp
  rw [h1, ← run_delivered textLaws15 nel lsps hne, (run_exact textLaws15 hs hr hn).1, output, (run_exact textLaws15 hs hr' hn').1]

/-- C137: at any point the rest can be read with `read_to_string` (and so `read_to_end`), with whatever sizes it grows its buffer: what the buffers have
received and the rest are together the whole text. -/
theorem c137_rest (nel lsps : Bool) (src : List Event) (hs : Ending src) (ws : List Way) (fuel : Nat) (xs : List WayResult)
    (h : mixed ucd15 fuel ws (.new nel lsps) src = some xs) (sizes : Nat → Nat) (hz : ∀ i, normalizationBufferSize ≤ sizes i) :
    ∃ n rest, (∀ m ≥ n, readToEnd ucd15 ((List.range m).map sizes) (afterWays (.new nel lsps) src xs).1 (afterWays (.new nel lsps) src xs).2 = some rest) ∧
      ∀ lens, Completes ucd15 nel lsps src lens → received xs ++ rest = output ucd15 nel lsps src lens := by
  obtain ⟨l, h1, h2, -, -⟩ := mixed_amounts ws _ _ _ h
  have hne : ∀ e ∈ src, e ≠ .err := by
    obtain ⟨es, s, rfl, hes⟩ := hs
    intro e he
    rcases List.mem_append.1 he with he | he
    · obtain ⟨s', st, rfl, -⟩ := hes e he; simp
    · simp only [List.mem_singleton] at he; subst he; simp
  obtain ⟨es, j1, j2, j3, -⟩ := run_rel textLaws15 l (.new nel lsps) src [] [] (Rel.init nel lsps)
  rw [h2]
  have hsub : ∀ e ∈ (finalState (TextInput.new nel lsps) src (readMany ucd15 l (.new nel lsps) src)).2, e ≠ .err := by
    obtain ⟨m, hm, hm'⟩ := j1
    intro e he
    have : e ∈ src ++ List.replicate m eof := by rw [← hm]; simp [he]
    rcases List.mem_append.1 this with h | h
    · exact hne e h
    · rw [List.eq_of_mem_replicate h]; simp [eof]
  obtain ⟨n, r, g1, k, g2⟩ := reach textLaws15 (ctl_new (U := ucd15) nel lsps) sizes hz _ _ _ _ 1 0 j2 (by simp)
  rw [← List.range_eq_range'] at g1
  obtain ⟨-, -, -, -, hp⟩ := run_rel textLaws15 ((List.range n).map sizes) _ (finalState (TextInput.new nel lsps) src (readMany ucd15 l (.new nel lsps) src)).2 _ _ j2
  obtain ⟨rest, hrest⟩ := readToEnd_exists _ _ _ (by
    intro m hm
    obtain ⟨i, -, rfl⟩ := List.mem_map.1 hm
    exact hz i) hsub hp ⟨r, k, g1, g2⟩
  refine ⟨n, rest, fun m hm => readToEnd_ge hm hrest, fun lens hc => ?_⟩
  obtain ⟨r', n', hr', hn'⟩ := hc
  obtain ⟨l', r1, n1, -, d1, d2, d3⟩ := readToEnd_run _ _ _ _ hrest
  have hrun : (readMany ucd15 (l ++ l') (.new nel lsps) src).getLast? = some r1 := by
    rw [readMany_append, List.getLast?_append, d1]; rfl
  have e := (run_exact textLaws15 hs hrun d2).1
  rw [output, (run_exact textLaws15 hs hr' hn').1, ← e, h1, ← d3, ← run_delivered textLaws15 nel lsps hne, readMany_append]
  simp [delivered]

/-- C137: so two mixtures agree as far as the shorter one goes. -/
theorem c137_agree (nel lsps : Bool) (src : List Event) (hs : Ending src) (ws ws' : List Way) (fuel fuel' : Nat) (xs xs' : List WayResult)
    (h : mixed ucd15 fuel ws (.new nel lsps) src = some xs) (h' : mixed ucd15 fuel' ws' (.new nel lsps) src = some xs') :
    received xs <+: received xs' ∨ received xs' <+: received xs := by
  obtain ⟨n, rest, -, h1⟩ := c137_rest nel lsps src hs ws fuel xs h (fun _ => normalizationBufferSize) (fun _ => Nat.le_refl _)
  obtain ⟨n', rest', -, h2⟩ := c137_rest nel lsps src hs ws' fuel' xs' h' (fun _ => normalizationBufferSize) (fun _ => Nat.le_refl _)
  obtain ⟨m, r, hr, k, hk⟩ := reach_const (t := .new nel lsps) (src := src) ⟨nel, lsps, src, [], rfl⟩ (Nat.le_refl normalizationBufferSize)
  have e1 := h1 _ ⟨r, k, hr, hk⟩
  have e2 := h2 _ ⟨r, k, hr, hk⟩
  exact List.prefix_or_prefix_of_prefix (List.prefix_iff_exists_append_eq.2 ⟨_, e1⟩) (List.prefix_iff_exists_append_eq.2 ⟨_, e2⟩)

/-- A mixture: a buffer that is too short, a plain read, exact reads that fail having taken a part, and a read at the end. -/
example : ((mixed ucd15 10 [.status 10, .plain 136, .exact 137, .exactStatus 150, .fill (List.replicate 200 ' '), .vectored [0, 136]] (.new false false)
      [.data (List.replicate 30 'a' ++ ['\n']) .active, .data (List.replicate 30 'b' ++ ['\n']) .active, .data (List.replicate 30 'c' ++ ['\n']) .active,
        .data ['d', '\n'] .end_]).map fun xs => (received xs, xs.map (·.ended), xs.map (·.out.length))) =
    some (List.replicate 30 'a' ++ '\n' :: List.replicate 30 'b' ++ '\n' :: List.replicate 30 'c' ++ ['\n', 'd', '\n'],
      [false, false, false, false, true, true], [0, 31, 31, 31, 2, 0]) ∧
    Ending [.data ['c', '\n'] .active, .data ['d', '\n'] .end_] ∧ (Way.fill (List.replicate 200 ' ')).Given :=
  ⟨by decide +kernel, ⟨[_], _, rfl, fun e he => ⟨_, _, List.mem_singleton.1 he, by simp⟩⟩, by unfold Way.Given; decide +kernel⟩

end Verif
