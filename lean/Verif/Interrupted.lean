import Verif.Copy
import Verif.ReaderLive
import Verif.HoldTheory

/-!
# Copying from a source whose reads are interrupted

`Event.err` stands for an error of any kind.  `copy_text` treats one kind specially: after `ErrorKind::Interrupted` it tries again.
Here is the loop on a source all of whose errors are of that kind.
-/

namespace Verif
open Ucd
variable {U : Ucd}

/-- `copy_text` (`src/copy.rs:8-30`) on a source whose errors are all of the kind `Interrupted`: the error of the source is
returned unchanged by the read (the `?` in `src/text_input.rs:418`), so that the arm in line 23 of `copy.rs` continues.  Errors
of any other kind are in `copyText`. -/
def copyRetry (U : Ucd) (len : Nat) : Nat → TextInput → List Event → Writer → Nat → Option CopyResult
  | 0, _, _, _, _ => none
  | fuel + 1, t, src, w, n =>
    let r := readWithStatus U len t src
    match stdRet r.ret with
    | .ok 0 => some { ret := .ok n, input := r.input, src := r.src, writer := w }
    | .ok (m + 1) =>
      match writeText U w r.out with
      | (w, .ok) => copyRetry U len fuel r.input r.src w (n + (m + 1))
      | (w, .err) => some { ret := .writeError, input := r.input, src := r.src, writer := w }
      | (w, .panic) => some { ret := .panic, input := r.input, src := r.src, writer := w }
    | .interrupted => copyRetry U len fuel r.input r.src w n
    | .sourceError => copyRetry U len fuel r.input r.src w n
    | .panic => some { ret := .panic, input := r.input, src := r.src, writer := w }
    | e => some { ret := .readError e, input := r.input, src := r.src, writer := w }

theorem copyRetry_mono {len : Nat} : ∀ {k : Nat} {t : TextInput} {src : List Event} {w : Writer} {n : Nat} {res : CopyResult},
    copyRetry U len k t src w n = some res → ∀ k', k ≤ k' → copyRetry U len k' t src w n = some res := by
  intro k
  induction k with
  | zero => intro t src w n res h; simp [copyRetry] at h
  | succ k ih =>
    intro t src w n res h k' hk
    obtain ⟨k'', rfl⟩ : ∃ k'', k' = k'' + 1 := ⟨k' - 1, by omega⟩
    rw [copyRetry] at h ⊢
    generalize readWithStatus U len t src = r at h ⊢
    cases hs : stdRet r.ret with
    | ok m =>
      rw [hs] at h
      cases m with
      | zero => exact h
      | succ m =>
        simp only at h ⊢
        rcases hw : writeText U w r.out with ⟨w', o⟩
        rw [hw] at h
        cases o with
        | ok => exact ih h k'' (by omega)
        | err => exact h
        | panic => exact h
    | interrupted => rw [hs] at h; exact ih h k'' (by omega)
    | sourceError => rw [hs] at h; exact ih h k'' (by omega)
    | panic => rw [hs] at h; exact h
    | invalidInput => rw [hs] at h; exact h

/-- Whatever the source and the sink do. -/
theorem retry_any (len : Nat) : ∀ (k : Nat) (t : TextInput) (src : List Event) (w : Writer) (n : Nat) (res : CopyResult), w.buffer = [] →
    copyRetry U len k t src w n = some res →
    res.ret ≠ .readError .sourceError ∧
    ∃ j, Copied w n res (delivered (readMany U (List.replicate j len) t src)) ∧
      ∀ m, res.ret = .ok m → ∃ r, (readMany U (List.replicate j len) t src).getLast? = some r ∧ r.ret = .ok 0 .end_ := by
  intro k
  induction k with
  | zero => intro t src w n res _ h; simp [copyRetry] at h
  | succ k ih =>
    intro t src w n res hb h
    rw [copyRetry] at h
    generalize hr : readWithStatus U len t src = r at h
    have hgo : ∀ j, readMany U (List.replicate (j + 1) len) t src = r :: readMany U (List.replicate j len) r.input r.src := by
      intro j; rw [List.replicate_succ, readMany]; simp only [hr]
    have h1del : delivered (readMany U (List.replicate 1 len) t src) = if r.ret.isOk then r.out else [] := by
      rw [hgo, delivered_cons]; simp [readMany, delivered]
    have hlast : ∀ j, (∀ m, res.ret = .ok m → ∃ r', (readMany U (List.replicate j len) r.input r.src).getLast? = some r' ∧ r'.ret = .ok 0 .end_) →
        ∀ m, res.ret = .ok m → ∃ r', (readMany U (List.replicate (j + 1) len) t src).getLast? = some r' ∧ r'.ret = .ok 0 .end_ := by
      intro j hj m hm
      obtain ⟨r', h1, h2⟩ := hj m hm
      exact ⟨r', by rw [hgo, List.getLast?_cons, h1]; rfl, h2⟩
    have hlen : ∀ m st, r.ret = .ok m st → m = (encode r.out).length := by
      intro m st he
      have := ok_length (U := U) (len := len) (t := t) (src := src) (m := m) (st := st) (by rw [hr]; exact he)
      rw [hr] at this; exact this
    obtain ⟨p, s1, s2, s3, s4⟩ := writeText_sent (U := U) w hb r.out
    have hstop : ∀ ret, (∀ m, ret ≠ .ok m) → ret ≠ .readError .sourceError → res = { ret := ret, input := r.input, src := r.src, writer := w } →
        res.ret ≠ .readError .sourceError ∧
        ∃ j, Copied w n res (delivered (readMany U (List.replicate j len) t src)) ∧
          ∀ m, res.ret = .ok m → ∃ r, (readMany U (List.replicate j len) t src).getLast? = some r ∧ r.ret = .ok 0 .end_ := by
      rintro ret hn hne rfl
      refine ⟨hne, 1, copied_nil (w := w) (res := { ret := ret, input := r.input, src := r.src, writer := w }) rfl ?_ _ ?_, ?_⟩
      · exact fun m hm => absurd hm (hn m)
      · exact fun ⟨m, hm⟩ => absurd hm (hn m)
      · exact fun m hm => absurd hm (hn m)
    cases hret : r.ret with
    | panic => simp [hret, stdRet] at h; exact hstop .panic (by simp) (by simp) h.symm
    | invalidInput => simp [hret, stdRet] at h; exact hstop (.readError .invalidInput) (by simp) (by simp) h.symm
    | sourceError =>
      simp [hret, stdRet] at h
      obtain ⟨h0, j, h1, h2⟩ := ih _ _ _ _ _ hb h
      refine ⟨h0, j + 1, ?_, hlast j h2⟩
      rw [hgo, delivered_cons, hret]
      simpa [Ret.isOk] using h1
    | ok m st =>
      have hm := hlen m st hret
      have hok : r.ret.isOk = true := by rw [hret]; rfl
      have hdel : ∀ j, delivered (readMany U (List.replicate (j + 1) len) t src) = r.out ++ delivered (readMany U (List.replicate j len) r.input r.src) := by
        intro j; rw [hgo, delivered_cons, hok, if_pos rfl]
      cases m with
      | zero =>
        have hz : r.out = [] := by
          have := length_le_encode r.out
          exact List.length_eq_zero_iff.1 (by omega)
        by_cases hst : st = .end_
        · simp [hret, stdRet, hst] at h
          refine ⟨by rw [← h]; simp, 1, copied_nil (by rw [← h]) (fun m hm => ?_) _ (fun _ => by rw [h1del, hok, hz]; rfl), fun m hm => ⟨r, ?_, ?_⟩⟩
          · rw [← h] at hm; simpa using hm.symm
          · rw [hgo]; simp [readMany]
          · rw [hret, hst]
        · simp [hret, stdRet, hst] at h
          obtain ⟨h0, j, h1, h2⟩ := ih _ _ _ _ _ hb h
          exact ⟨h0, j + 1, by rw [hdel, hz]; exact h1, hlast j h2⟩
      | succ m =>
        have hs : stdRet r.ret = .ok (m + 1) := by rw [hret]; simp [stdRet]
        rw [hs] at h
        simp only at h
        rcases hw : writeText U w r.out with ⟨w', o⟩
        rw [hw] at h s1 s3 s4
        cases o with
        | ok =>
          simp only at h s1 s3 s4
          obtain ⟨q1, q2⟩ := s4 trivial
          obtain ⟨h0, j, h1, h2⟩ := ih _ _ _ _ _ q2 h
          refine ⟨h0, j + 1, ?_, hlast j h2⟩
          rw [hdel]
          exact h1.step (by rw [s1, q1]) s3 hm
        | err =>
          simp only [Option.some.injEq] at h
          refine ⟨by rw [← h]; simp, 1, ?_, by rw [← h]; simp⟩
          rw [h1del, hok, if_pos rfl]
          exact copied_stop (by rw [← h]) s1 s2 (by rw [← h]; simp)
        | panic =>
          simp only [Option.some.injEq] at h
          refine ⟨by rw [← h]; simp, 1, ?_, by rw [← h]; simp⟩
          rw [h1del, hok, if_pos rfl]
          exact copied_stop (by rw [← h]) s1 s2 (by rw [← h]; simp)

/-- The loop stops at the latest with the read that reports the end and no text. -/
theorem retry_stops (len : Nat) : ∀ (k : Nat) (t : TextInput) (src : List Event) (w : Writer) (n : Nat),
    (∃ r ∈ readMany U (List.replicate k len) t src, r.ret = .ok 0 .end_) → ∃ res, copyRetry U len k t src w n = some res := by
  intro k
  induction k with
  | zero => intro t src w n ⟨r, hr, _⟩; simp [readMany] at hr
  | succ k ih =>
    intro t src w n hend
    rw [List.replicate_succ, readMany] at hend
    rw [copyRetry]
    generalize readWithStatus U len t src = r at hend
    have hnext : r.ret ≠ .ok 0 .end_ → ∀ w n, ∃ res, copyRetry U len k r.input r.src w n = some res := by
      intro h0 w n
      obtain ⟨r', h1, h2⟩ := hend
      simp only [List.mem_cons] at h1
      rcases h1 with rfl | h1
      · exact absurd h2 h0
      · exact ih _ _ w n ⟨r', h1, h2⟩
    by_cases h0 : r.ret = .ok 0 .end_
    · simp [h0, stdRet]
    · split
      · exact ⟨_, rfl⟩
      · split
        · exact hnext h0 _ _
        · exact ⟨_, rfl⟩
        · exact ⟨_, rfl⟩
      · exact hnext h0 _ _
      · exact hnext h0 _ _
      · exact ⟨_, rfl⟩
      · exact ⟨_, rfl⟩

/-- A read that finds nothing to give and no pending status takes an event. -/
theorem read_takes (hU : TextLaws U) {k0 : Ctl} {t : TextInput} {emitted : List Char} {es : List Event} (h : Rel U k0 t emitted es) (hi : Idle t)
    (hp : t.pending = .active) {len : Nat} (hl : normalizationBufferSize ≤ len) (src : List Event) :
    ∃ es', Consumed src es' (readWithStatus U len t src).src ∧ es' ≠ [] ∧
      Rel U k0 (readWithStatus U len t src).input (emitted ++ (readWithStatus U len t src).out) (es ++ es') ∧
      (es' = [.data [] .end_] → Settled (absorbAll U (k0, []) es) → ∃ n, (readWithStatus U len t src).ret = .ok n .end_) := by
  obtain ⟨-, g2⟩ := read_rel hU h (rfl : readWithStatus U len t src = _)
  obtain ⟨es', c1, c2, -, -, -, c6, c7⟩ := g2 hl
  refine ⟨es', c1, ?_, c2, c7⟩
  intro he
  have hrem : remaining U t = 0 := by
    unfold remaining
    rw [hi.quick, hi.iter, List.drop_zero, yields_zero hi.queue]; rfl
  rcases c6 he with ⟨p1, -⟩ | ⟨-, p2⟩
  · exact p1 hp
  · rw [hrem] at p2; omega

/-- A drain of a state that has nothing to give. -/
theorem drain_still {t : TextInput} (hi : Idle t) (fuel room : Nat) : drain U (fuel + 1) room t = (.empty, [], t) := by
  rw [drain, queueNext_none hi]

/-- A reader with nothing left, at the start of a line, on a source that is at its end. -/
theorem read_over {t : TextInput} (hi : Idle t) (hq : t.queue = []) (hp : t.pending = .active) (hs : t.ctl.state = .ground true) {len : Nat}
    (hl : normalizationBufferSize ≤ len) : (readWithStatus U len t []).ret = .ok 0 .end_ ∧ (readWithStatus U len t []).out = [] ∧
      (readWithStatus U len t []).src = [] ∧
      (readWithStatus U len t []).input = { t with ctl := { t.ctl with atStart := false, expectStarter := true } } := by
  obtain ⟨k, q, it, qu, pe⟩ := t
  simp only at hq hp hs
  subst hq hp
  have hi2 : ∀ k, Idle { ctl := k, queue := [], iter := it, quick := qu, pending := .active } := fun k => ⟨hi.quick, hi.iter, hi.queue⟩
  unfold readWithStatus
  rw [if_neg (by omega), drain_still hi]
  simp only [ne_eq, not_true_eq_false, if_false, nextEvent, processRaw_nil, List.append_nil, List.getLast?_nil, reduceCtorEq,
    not_false_eq_true, if_true, finish_settled (k := { k with atStart := false }) hs (b := none) (by simp)]
  rw [drain_still (hi2 _)]
  exact ⟨rfl, rfl, rfl, rfl⟩

/-- A read of an error by a state that has nothing to give. -/
theorem read_err {t : TextInput} (hi : Idle t) (hp : t.pending = .active) {len : Nat} (hl : normalizationBufferSize ≤ len) (src : List Event) :
    readWithStatus U len t (.err :: src) = { ret := .sourceError, out := [], input := t, src := src } := by
  unfold readWithStatus
  rw [if_neg (by omega), drain_still hi]
  simp only [hp, ne_eq, not_true_eq_false, if_false, nextEvent]

/-- Reading on from any state, with buffers that are big enough, there comes a read that reports the end and has no text. -/
theorem reach_empty (hU : TextLaws U) {k0 : Ctl} (hk : CtlInv U k0 []) {len : Nat} (hl : normalizationBufferSize ≤ len) :
    ∀ (b : Nat) (t : TextInput) (src : List Event) (emitted : List Char) (es : List Event), src.length ≤ b → Rel U k0 t emitted es →
    ∃ k, ∃ r ∈ readMany U (List.replicate k len) t src, r.ret = .ok 0 .end_ := by
  intro b
  induction b with
  | zero => ?_
  | succ b ih => ?_
  all_goals
    intro t src emitted es hb h
    obtain ⟨k, r, hr, n, hn⟩ := reach hU hk (fun _ => len) (fun _ => hl) t src emitted es 1 0 h (by simp)
    rw [show (List.range' 0 k).map (fun _ => len) = List.replicate k len by simp [List.map_const']] at hr
    obtain ⟨es', s, h1, h2, h3⟩ := run_last hU h hr hn (by simp)
    have hfin : finalState t src (readMany U (List.replicate k len) t src) = (r.input, r.src) := by simp [finalState, hr]
    rw [hfin] at h1
    have hset : Settled (absorbAll U (k0, []) (es ++ (es' ++ [.data s .end_]))) := by
      rw [← List.append_assoc, absorbAll_append]
      exact absorb_settled hU (ctl_absorbAll hU _ _ hk) s
    have hpend : r.input.pending = .active := by
      rcases List.eq_nil_or_concat (List.replicate k len) with h0 | ⟨lens', l, h0⟩
      · rw [h0] at hr; simp [readMany] at hr
      · rw [h0, List.concat_eq_append, readMany_append] at hr
        obtain ⟨es', -, j2, -, -⟩ := run_rel hU lens' t src _ _ h
        generalize finalState t src (readMany U lens' t src) = f at hr j2
        simp only [readMany, List.getLast?_append, List.getLast?_singleton, Option.some_or, Option.some.injEq] at hr
        subst hr
        exact end_pending hU j2 hn (by simp)
    obtain ⟨e2, c1, c2, c3, c4⟩ := read_takes hU h2 h3 hpend hl r.src
    have hsub : r.src.length ≤ src.length := by
      obtain ⟨m, hm, hm'⟩ := h1
      by_cases h0 : m = 0
      · subst h0
        have := congrArg List.length hm
        simp only [List.length_append, List.replicate_zero, List.length_nil] at this
        omega
      · have := hm' h0
        simp only at this
        rw [this]; simp
    have hrun : ∀ j, readMany U (List.replicate (k + (j + 1)) len) t src = readMany U (List.replicate k len) t src ++
        (readWithStatus U len r.input r.src ::
          readMany U (List.replicate j len) (readWithStatus U len r.input r.src).input (readWithStatus U len r.input r.src).src) := by
      intro j
      rw [show List.replicate (k + (j + 1)) len = List.replicate k len ++ List.replicate (j + 1) len by simp, readMany_append, hfin, List.replicate_succ]
      rfl
    have hempty : r.src = [] → ∃ k, ∃ r ∈ readMany U (List.replicate k len) t src, r.ret = .ok 0 .end_ := by
      intro he
      refine ⟨k + 1, readWithStatus U len r.input r.src, by rw [hrun 0]; simp, ?_⟩
      rw [he]
      exact (read_over h3 (h2.inv.at_end h3 hset.2).1 hpend (by rw [h2.ctl hpend]; exact hset.1) hl).1
  · exact hempty (List.length_eq_zero_iff.1 (by omega))
  · by_cases he : r.src = []
    · exact hempty he
    · have hless : (readWithStatus U len r.input r.src).src.length ≤ b := by
        generalize (readWithStatus U len r.input r.src).src = z at c1
        generalize r.src = y at c1 he hsub
        cases c1
        · exact absurd rfl c2
        · simp only [List.length_cons] at hsub; omega
        · exact absurd rfl he
      obtain ⟨j, r', g1, g2⟩ := ih _ _ _ _ hless c3
      exact ⟨k + (j + 1), r', by rw [hrun j]; simp [g1], g2⟩

/-- The copy, while the reads succeed or are interrupted and up to the one that reports the end with no text. -/
theorem retry_reads (hU : TextLaws U) (len : Nat) : ∀ (k : Nat) (t : TextInput) (src : List Event) (w : Writer) (n : Nat), Willing w →
    (∀ r ∈ readMany U (List.replicate k len) t src, (∃ st, r.ret = .ok (encode r.out).length st) ∨ r.ret = .sourceError) →
    (∃ r ∈ readMany U (List.replicate k len) t src, r.ret = .ok 0 .end_) →
    (w.expectStarter = true → ∀ j, j ≤ k → ∀ c ∈ (delivered (readMany U (List.replicate j len) t src)).head?, isStart U c = true) →
    ∃ j r w', j ≤ k ∧ (readMany U (List.replicate j len) t src).getLast? = some r ∧ r.ret = .ok 0 .end_ ∧
      copyRetry U len k t src w n =
        some { ret := .ok (n + (encode (delivered (readMany U (List.replicate j len) t src))).length), input := r.input, src := r.src, writer := w' } ∧
      Wrote w w' (delivered (readMany U (List.replicate j len) t src)) := by
  intro k
  induction k with
  | zero => intro t src w n _ _ ⟨r, hr, _⟩; simp [readMany] at hr
  | succ k ih =>
    intro t src w n hw hok hend hst
    rw [List.replicate_succ, readMany] at hok hend
    generalize hr : readWithStatus U len t src = r at hok hend
    have hok' : ∀ r' ∈ readMany U (List.replicate k len) r.input r.src, (∃ st, r'.ret = .ok (encode r'.out).length st) ∨ r'.ret = .sourceError :=
      fun r' hr' => hok r' (by simp [hr'])
    have hgo : ∀ j, readMany U (List.replicate (j + 1) len) t src = r :: readMany U (List.replicate j len) r.input r.src := by
      intro j; rw [List.replicate_succ, readMany]; simp only [hr]
    rw [copyRetry]
    simp only [hr]
    rcases hok r (by simp) with ⟨st, hret⟩ | hret
    rotate_left
    · have hend' : ∃ r' ∈ readMany U (List.replicate k len) r.input r.src, r'.ret = .ok 0 .end_ := by
        obtain ⟨r', h1, h2⟩ := hend
        simp only [List.mem_cons] at h1
        rcases h1 with rfl | h1
        · rw [hret] at h2; simp at h2
        · exact ⟨r', h1, h2⟩
      have hisok : r.ret.isOk = false := by rw [hret]; rfl
      obtain ⟨j, r', w', a0, a1, a2, a3, a4⟩ := ih r.input r.src w n hw hok' hend' (fun he j hj => by
        have := hst he (j + 1) (by omega)
        rw [hgo, delivered_cons, hisok] at this
        simpa using this)
      refine ⟨j + 1, r', w', by omega, ?_, a2, ?_, ?_⟩
      · rw [hgo, List.getLast?_cons, a1]; rfl
      · rw [hret]
        simp only [stdRet]
        rw [a3, hgo, delivered_cons, hisok]; simp
      · rw [hgo, delivered_cons, hisok]; simpa using a4
    have hisok : r.ret.isOk = true := by rw [hret]; rfl
    by_cases h0 : r.ret = .ok 0 .end_
    · refine ⟨1, r, w, by omega, ?_, h0, ?_, ?_⟩
      · rw [hgo]; simp [readMany]
      · have : r.out = [] := by
          rw [h0] at hret
          injection hret with h1 h2
          have := length_le_encode r.out
          exact List.length_eq_zero_iff.1 (by omega)
        rw [hgo, delivered_cons]
        simp [h0, stdRet, this, readMany, delivered, encode]
      · have : r.out = [] := by
          rw [h0] at hret
          injection hret with h1 h2
          have := length_le_encode r.out
          exact List.length_eq_zero_iff.1 (by omega)
        rw [hgo, delivered_cons]
        simp only [this, ite_self, List.nil_append]
        exact Wrote.refl hw
    · have hend' : ∃ r' ∈ readMany U (List.replicate k len) r.input r.src, r'.ret = .ok 0 .end_ := by
        obtain ⟨r', h1, h2⟩ := hend
        simp only [List.mem_cons] at h1
        rcases h1 with rfl | h1
        · exact absurd h2 h0
        · exact ⟨r', h1, h2⟩
      by_cases hz : r.out = []
      · have hs : stdRet r.ret = .interrupted := by
          rw [hret, hz]
          have : st ≠ .end_ := by rintro rfl; exact h0 (by rw [hret, hz]; rfl)
          simp [stdRet, encode, this]
        rw [hs]
        simp only
        obtain ⟨j, r', w', a0, a1, a2, a3, a4⟩ := ih r.input r.src w n hw hok' hend' (fun he j hj => by
          have := hst he (j + 1) (by omega)
          rw [hgo, delivered_cons, hisok, hz] at this
          simpa using this)
        refine ⟨j + 1, r', w', by omega, ?_, a2, ?_, ?_⟩
        · rw [hgo, List.getLast?_cons, a1]; rfl
        · rw [a3, hgo, delivered_cons, hisok, hz]; simp
        · rw [hgo, delivered_cons, hisok, hz]; simpa using a4
      · have hpos : 0 < (encode r.out).length := by
          have := length_le_encode r.out
          have := List.length_pos_iff.2 hz
          omega
        obtain ⟨m, hm⟩ : ∃ m, (encode r.out).length = m + 1 := ⟨(encode r.out).length - 1, by omega⟩
        have hs : stdRet r.ret = .ok (m + 1) := by rw [hret, hm]; simp [stdRet]
        rw [hs]
        simp only
        have hgood : w.expectStarter = true → ∀ c ∈ r.out.head?, isStart U c = true := by
          intro he c hc
          have := hst he 1 (by omega)
          rw [hgo, delivered_cons, hisok] at this
          exact this c (by simpa [readMany, delivered] using hc)
        rw [writeText_good hU hw hgood]
        simp only
        obtain ⟨j, r', w', a0, a1, a2, a3, a4⟩ := ih r.input r.src _ (n + (m + 1)) (willing_step hw r.out) hok' hend' (fun he => by simp at he)
        refine ⟨j + 1, r', w', by omega, ?_, a2, ?_, ?_⟩
        · rw [hgo, List.getLast?_cons, a1]; rfl
        · rw [a3, hgo, delivered_cons, hisok, if_pos rfl, encode_append, List.length_append, hm]
          congr 3; omega
        · rw [hgo, delivered_cons, hisok, if_pos rfl]
          exact a4.step hw

/-- After a call that has failed the reader has nothing more to give. -/
theorem err_still (hU : TextLaws U) {k0 : Ctl} {t : TextInput} {emitted : List Char} {es src : List Event} {len : Nat} (h : Rel U k0 t emitted es)
    (hr : (readWithStatus U len t src).ret = .sourceError) :
    Idle (readWithStatus U len t src).input ∧ (readWithStatus U len t src).input.pending = .active := by
  unfold readWithStatus at hr ⊢
  have hm : maxUtf8Size = 4 := rfl
  have hN : normalizationBufferSize = 136 := rfl
  by_cases hl : len < normalizationBufferSize
  · rw [if_pos hl] at hr; simp at hr
  rw [if_neg hl] at hr ⊢
  cases hd : drain U (len + 1) len t with
  | mk stop p =>
  obtain ⟨out, t'⟩ := p
  obtain ⟨i1, i2, i3, i4, i5, i6, i7⟩ := drain_inv hU (len + 1) len t emitted _ h.inv (by omega) (by omega) stop out t' hd
  rw [hd] at hr
  cases stop with
  | panic => simp at hr
  | full => simp at hr
  | empty =>
    dsimp only at hr ⊢
    obtain ⟨j1, j2⟩ := i6 rfl
    split at hr
    · simp at hr
    · rename_i hp
      rw [if_neg hp]
      cases hn : nextEvent src with
      | mk e src' =>
      cases e with
      | err => exact ⟨j2, by simpa using hp⟩
      | data s status =>
        rw [hn] at hr
        dsimp only at hr
        revert hr
        generalize (if status ≠ Status.active then _ else _ : TextInput) = t2
        rcases drain U (len + 1) (len - (encode out).length) t2 with ⟨x, y, z⟩
        cases x <;> simp

/-- A drain that stops because the buffer is full leaves no room for a scalar. -/
theorem drain_packed : ∀ (fuel room : Nat) (t : TextInput), (drain U fuel room t).1 = .full →
    room < (encode (drain U fuel room t).2.1).length + maxUtf8Size := by
  intro fuel
  induction fuel with
  | zero => intro room t h; simp [drain] at h
  | succ fuel ih =>
    intro room t h
    unfold drain at h ⊢
    split at h
    · simp at h
    · rename_i x c t' hx
      split at h
      · simp at h
      · rename_i h1
        rw [if_neg h1]
        split at h
        · rename_i h2
          rw [if_pos h2]
          simp only [encode, List.flatMap_cons, List.flatMap_nil, List.append_nil, encodeChar_length] at *
          omega
        · rename_i h2
          rw [if_neg h2]
          simp only at h
          have := ih _ _ h
          generalize drain U fuel (room - utf8Len c) t' = d at *
          obtain ⟨x, y, z⟩ := d
          simp only [encode, List.flatMap_cons, List.length_append, encodeChar_length] at *
          omega

/-- After a call that leaves room for a scalar in the buffer no status is pending. -/
theorem roomy_pending {t : TextInput} {src : List Event} {len n : Nat} {st : Status} (hok : (readWithStatus U len t src).ret = .ok n st)
    (hroom : n + maxUtf8Size ≤ len) (hU : TextLaws U) {k0 : Ctl} {emitted : List Char} {es : List Event} (h : Rel U k0 t emitted es) :
    (readWithStatus U len t src).input.pending = .active := by
  unfold readWithStatus at hok ⊢
  have hm : maxUtf8Size = 4 := rfl
  have hN : normalizationBufferSize = 136 := rfl
  by_cases hl : len < normalizationBufferSize
  · rw [if_pos hl] at hok; simp at hok
  rw [if_neg hl] at hok ⊢
  cases hd : drain U (len + 1) len t with
  | mk stop p =>
  obtain ⟨out, t'⟩ := p
  obtain ⟨i1, i2, i3, i4, i5, i6, i7⟩ := drain_inv hU (len + 1) len t emitted _ h.inv (by omega) (by omega) stop out t' hd
  rw [hd] at hok
  cases stop with
  | panic => simp at hok
  | full =>
    simp only [Ret.ok.injEq] at hok
    have := i7 rfl
    omega
  | empty =>
    dsimp only at hok ⊢
    obtain ⟨j1, j2⟩ := i6 rfl
    split at hok
    · rename_i hp; rw [if_pos hp]
    · rename_i hp
      rw [if_neg hp]
      cases hn : nextEvent src with
      | mk e src' =>
      cases e with
      | err => rw [hn] at hok; simp at hok
      | data s status =>
        rw [hn] at hok
        dsimp only at hok ⊢
        have hp' : t'.pending = .active := by simpa using hp
        generalize hq : (if status ≠ Status.active then _ else _ : TextInput) = t2 at hok ⊢
        have hp2 : t2.pending = .active := by rw [← hq]; split <;> exact hp'
        have hdr := drain_pending (U := U) (len + 1) (len - (encode out).length) t2
        have hfu := drain_packed (U := U) (len + 1) (len - (encode out).length) t2
        generalize drain U (len + 1) (len - (encode out).length) t2 = d at *
        obtain ⟨stop, out', t3⟩ := d
        cases stop with
        | panic => simp at hok
        | full =>
          simp only [Ret.ok.injEq, encode_append, List.length_append] at hok
          have := hfu rfl
          simp only at this
          omega
        | empty =>
          simp only at hdr ⊢
          split <;> exact hdr.trans hp2

/-- `copy_text_using_status` returns `Ok` only if every read has succeeded. -/
theorem status_all_ok (len : Nat) : ∀ (k : Nat) (t : TextInput) (src : List Event) (w : Writer) (n : Nat) (res : CopyResult) (m : Nat),
    copyTextUsingStatus U len k t src w n = some res → res.ret = .ok m →
    ∃ j, (∀ r ∈ readMany U (List.replicate j len) t src, r.ret.isOk = true) ∧
      (∃ r n', (readMany U (List.replicate j len) t src).getLast? = some r ∧ r.ret = .ok n' .end_) ∧
      m = n + (encode (delivered (readMany U (List.replicate j len) t src))).length := by
  intro k
  induction k with
  | zero => intro t src w n res m h _; simp [copyTextUsingStatus] at h
  | succ k ih =>
    intro t src w n res m h hm
    rw [copyTextUsingStatus] at h
    generalize hr : readWithStatus U len t src = r at h
    have hgo : ∀ j, readMany U (List.replicate (j + 1) len) t src = r :: readMany U (List.replicate j len) r.input r.src := by
      intro j; rw [List.replicate_succ, readMany]; simp only [hr]
    cases hret : r.ret with
    | panic => simp [hret] at h; rw [← h] at hm; simp at hm
    | invalidInput => simp [hret] at h; rw [← h] at hm; simp at hm
    | sourceError => simp [hret] at h; rw [← h] at hm; simp at hm
    | ok q st =>
      have hq : q = (encode r.out).length := by
        have := ok_length (U := U) (len := len) (t := t) (src := src) (m := q) (st := st) (by rw [hr]; exact hret)
        rw [hr] at this; exact this
      have hisok : r.ret.isOk = true := by rw [hret]; rfl
      have hmore : ∀ w', copyTextUsingStatus U len k r.input r.src w' (n + q) = some res →
          ∃ j, (∀ r ∈ readMany U (List.replicate j len) t src, r.ret.isOk = true) ∧
            (∃ r n', (readMany U (List.replicate j len) t src).getLast? = some r ∧ r.ret = .ok n' .end_) ∧
            m = n + (encode (delivered (readMany U (List.replicate j len) t src))).length := by
        intro w' h
        obtain ⟨j, h1, ⟨r', n', h2, h3⟩, h4⟩ := ih _ _ _ _ _ _ h hm
        refine ⟨j + 1, ?_, ⟨r', n', by rw [hgo, List.getLast?_cons, h2]; rfl, h3⟩, ?_⟩
        · rw [hgo]
          intro x hx
          rcases List.mem_cons.1 hx with rfl | hx
          · exact hisok
          · exact h1 x hx
        · rw [hgo, delivered_cons, hisok, if_pos rfl, encode_append, List.length_append, h4, hq]; omega
      rw [hret] at h
      simp only at h
      rcases hw : writeText U w r.out with ⟨w', o⟩
      rw [hw] at h
      cases o with
      | err => simp at h; rw [← h] at hm; simp at hm
      | panic => simp at h; rw [← h] at hm; simp at hm
      | ok =>
        cases st with
        | end_ =>
          simp only [Option.some.injEq] at h
          rw [← h] at hm
          simp only [CopyRet.ok.injEq] at hm
          refine ⟨1, ?_, ⟨r, q, by rw [hgo]; simp [readMany], hret⟩, ?_⟩
          · rw [hgo]; simp [readMany, hisok]
          · rw [hgo, delivered_cons, hisok]; simp [readMany, delivered, ← hm, hq]
        | active => exact hmore _ h
        | push =>
          simp only at h
          rcases hf : flush w' with ⟨w'', o⟩
          rw [hf] at h
          cases o with
          | ok => exact hmore _ h
          | err => simp at h; rw [← h] at hm; simp at hm
          | panic => simp at h; rw [← h] at hm; simp at hm

end Verif
