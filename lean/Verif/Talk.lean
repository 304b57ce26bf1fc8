import Verif.CutPlaces
import Verif.Interrupted
import Verif.WriteMany
import Verif.StringTheory
import Verif.StrictStream
import Verif.Duplexer

/-!
# Two peers

Two `TextDuplexer`s (`src/text_duplexer.rs`), each one reading what the other one writes.  One end writes a message and
flushes, and then the other end reads.
-/

namespace Verif
open Ucd
variable {U : Ucd}

/-- `a` says `m`: it calls `write_str` and `flush` (`src/text_duplexer.rs:349-397`), and what has arrived in its inner stream since
is what the next read of the inner stream of `b` gives, with `status`.  Then `b` reads with a buffer of `len` bytes
(`src/text_duplexer.rs:228-240`).  That the transport keeps the message in one piece is a simplification. -/
def tell (U : Ucd) (a b : Duplexer) (m : List Char) (status : Status) (len : Nat) : (Duplexer × Duplexer) × DOut × DOut × DOut :=
  let r := dstep U a (.op (.str m))
  let f := dstep U r.1 (.op .flush)
  let b := { b with src := b.src ++ [.data (f.1.output.sink.sent.drop a.output.sink.sent.length) status] }
  let h := dstep U b (.read len)
  ((f.1, h.1), r.2, f.2, h.2)

/-- A message in a dialogue: who says it, what, what status it arrives with, and how long the buffer of the other end is. -/
structure Turn where
  first : Bool
  msg : List Char
  status : Status
  len : Nat
  deriving DecidableEq, Repr

/-- A dialogue, and the three results of each turn. -/
def talk (U : Ucd) : Duplexer → Duplexer → List Turn → (Duplexer × Duplexer) × List (DOut × DOut × DOut)
  | a, b, [] => ((a, b), [])
  | a, b, t :: ts =>
    if t.first then
      let r := tell U a b t.msg t.status t.len
      let x := talk U r.1.1 r.1.2 ts
      (x.1, r.2 :: x.2)
    else
      let r := tell U b a t.msg t.status t.len
      let x := talk U r.1.2 r.1.1 ts
      (x.1, r.2 :: x.2)

/-! ## Draining a text that is in normal form -/

theorem drain_quick {R : List Char} (hR : ∀ c ∈ R, isBoundary c = false) : ∀ (q : List Char) {k : Ctl} {p : Status} {fuel room : Nat}, q.length < fuel →
    (encode q).length + 4 ≤ room →
    drain U fuel room { ctl := k, queue := q ++ R, iter := [], quick := q.length, pending := p } =
      (.empty, q, { ctl := k, queue := R, iter := [], quick := 0, pending := p })
  | [], k, p, fuel + 1, room, _, _ => drain_still ⟨rfl, rfl, hR⟩ _ _
  | c :: q, k, p, fuel + 1, room, hf, hr => by
    rw [encode_cons, List.length_append, encodeChar_length] at hr
    simp only [List.length_cons] at hf
    rw [drain]
    simp only [queueNext, List.length_cons, ne_eq, Nat.add_one_ne_zero, not_false_eq_true, if_true, List.cons_append, List.head?_cons,
      List.tail_cons, Nat.add_sub_cancel]
    rw [if_neg (by omega), if_neg (by simp only [maxUtf8Size]; omega), drain_quick hR q (by omega) (by omega)]

theorem drain_list {R : List Char} (hR : ∀ c ∈ R, isBoundary c = false) : ∀ (q : List Char) {k : Ctl} {p : Status} {fuel room : Nat}, q.length < fuel →
    (encode q).length + 4 ≤ room →
    drain U fuel room { ctl := k, queue := R, iter := q, quick := 0, pending := p } =
      (.empty, q, { ctl := k, queue := R, iter := [], quick := 0, pending := p })
  | [], k, p, fuel + 1, room, _, _ => drain_still ⟨rfl, rfl, hR⟩ _ _
  | c :: q, k, p, fuel + 1, room, hf, hr => by
    rw [encode_cons, List.length_append, encodeChar_length] at hr
    simp only [List.length_cons] at hf
    rw [drain]
    simp only [queueNext, ne_eq, not_true_eq_false, if_false]
    rw [if_neg (by omega), if_neg (by simp only [maxUtf8Size]; omega), drain_list hR q (by omega) (by omega)]

theorem lastBoundary_parts {x R : List Char} {b : Char} (hb : isBoundary b = true) (hR : ∀ c ∈ R, isBoundary c = false) :
    lastBoundary (x ++ b :: R) = some (x.length + 1) := by
  have h : (x ++ b :: R).reverse.findIdx? isBoundary = some R.length := by
    rw [List.findIdx?_eq_some_iff_getElem]
    refine ⟨by simp, ?_, ?_⟩
    · simp [hb]
    · intro j hj
      have : (x ++ b :: R).reverse[j]'(by simp; omega) = R.reverse[j]'(by simpa using hj) := by
        simp only [List.reverse_append, List.reverse_cons, List.append_assoc]
        rw [List.getElem_append_left]
      rw [this]
      have := hR _ (List.mem_reverse.1 (List.getElem_mem (l := R.reverse) (by simpa using hj)))
      rw [this]; simp
  rw [lastBoundary, h]
  simp; omega

/-- All of the queue up to the last boundary comes out, unchanged. -/
theorem drain_whole {P R : List Char} (hP : P = [] ∨ ∃ x b, P = x ++ [b] ∧ isBoundary b = true) (hR : ∀ c ∈ R, isBoundary c = false)
    (hn : normChain U P = P) {k : Ctl} {p : Status} {fuel room : Nat} (hf : P.length < fuel) (hr : (encode P).length + 4 ≤ room) :
    drain U fuel room { ctl := k, queue := P ++ R, iter := [], quick := 0, pending := p } =
      (.empty, P, { ctl := k, queue := R, iter := [], quick := 0, pending := p }) := by
  rcases hP with rfl | ⟨x, b, rfl, hb⟩
  · exact drain_list hR [] hf hr
  · obtain ⟨c, y, hc⟩ : ∃ c y, x ++ [b] = c :: y := by cases x <;> simp
    have hlb : lastBoundary (x ++ [b] ++ R) = some (x ++ [b]).length := by
      rw [List.append_assoc]; simpa using lastBoundary_parts hb hR
    rw [hc] at hlb hn hf hr ⊢
    obtain ⟨fuel, rfl⟩ : ∃ n, fuel = n + 1 := ⟨fuel - 1, by omega⟩
    rw [encode_cons, List.length_append, encodeChar_length] at hr
    simp only [List.length_cons] at hf
    rw [drain]
    simp only [queueNext, ne_eq, not_true_eq_false, if_false, hlb, List.take_left, List.drop_left]
    split
    · rename_i hx
      split at hx <;> rename_i hq
      · simp at hx
      · rw [hn] at hx; simp at hx
    · rename_i d t hx
      split at hx <;> rename_i hq
      · simp only [List.cons_append, List.head?_cons, List.tail_cons, List.length_cons, Nat.add_sub_cancel, Prod.mk.injEq, Option.some.injEq] at hx
        obtain ⟨rfl, rfl⟩ := hx
        rw [if_neg (by omega), if_neg (by simp only [maxUtf8Size]; omega), drain_quick hR y (by omega) (by omega)]
      · rw [hn] at hx
        simp only [Prod.mk.injEq, Option.some.injEq] at hx
        obtain ⟨rfl, rfl⟩ := hx
        rw [if_neg (by omega), if_neg (by simp only [maxUtf8Size]; omega), drain_list hR y (by omega) (by omega)]

/-! ## Reading a message -/

theorem feed_toCrlf (s : List Char) : ∀ {k : Ctl} {p : List Char}, Follows k p → (∀ c ∈ s, okChar c = true) → (p = [] → ∀ c ∈ s.head?, isStart U c = true) →
    ∃ k', feed U k (toCrlf s) = (k', s) ∧ Follows k' (p ++ s) := by
  induction s with
  | nil => intro k p h _ _; exact ⟨k, rfl, by simpa using h⟩
  | cons c s ih =>
    intro k p h hs hst
    by_cases h1 : c = '\n'
    · subst h1
      have hf : Follows { k with state := .ground true, expectStarter := false } (p ++ ['\n']) := by simp [Follows]
      obtain ⟨k2, e2, h2⟩ := ih hf (fun c h => hs c (by simp [h])) (by simp)
      refine ⟨k2, ?_, by simpa using h2⟩
      rw [toCrlf_nl]
      have e1 : stepChar U k '\r' = ({ k with state := .cr }, []) := by
        simp only [stepChar, h.1]
        rfl
      simp only [feed, e1]
      have e3 : stepChar U { k with state := .cr } '\n' = ({ k with state := .ground true, expectStarter := false }, ['\n']) := by
        simp [stepChar]
      simp only [e3, e2]
      rfl
    · rw [toCrlf_other h1]
      obtain ⟨k', e1, h1⟩ := feed_follows (U := U) [c] h (fun d hd => hs d (by simp at hd; simp [hd])) (fun hp d hd => hst hp d (by simpa using hd))
      obtain ⟨k2, e2, h2⟩ := ih h1 (fun c h => hs c (by simp [h])) (by simp)
      refine ⟨k2, ?_, by simpa using h2⟩
      have e3 : stepChar U k c = (k', [c]) := by
        simp only [feed, List.append_nil] at e1
        exact Prod.ext (congrArg Prod.fst e1) (congrArg Prod.snd e1)
      simp only [feed, e3, e2]
      rfl

theorem processRaw_enc {k : Ctl} {p s : List Char} (cr : Bool) (h : Follows k p) (hs : ∀ c ∈ s, okChar c = true) (hst : p = [] → ∀ c ∈ s.head?, isStart U c = true) :
    ∃ k', processRaw U k (enc cr s) = (k', s) ∧ Follows k' (p ++ s) := by
  cases cr with
  | false => exact processRaw_follows h hs hst
  | true =>
    simp only [enc, if_true]
    have e : (if k.atStart && (toCrlf s).head? == some BOM then (toCrlf s).tail else toCrlf s) = toCrlf s := by
      rw [if_neg]
      intro hb
      simp only [Bool.and_eq_true, beq_iff_eq] at hb
      cases s with
      | nil => simp [toCrlf] at hb
      | cons c s =>
        by_cases hc : c = '\n'
        · subst hc; rw [toCrlf_nl] at hb; simp [BOM] at hb
        · rw [toCrlf_other hc] at hb
          exact (ok_not_special (hs c (by simp))).2.2.2.2.2.2 (by simpa using hb.2)
    unfold processRaw
    simp only [e]
    exact feed_toCrlf s (k := { k with atStart := false }) h hs hst

/-- A reader that has given out all it had, at the start of a line. -/
structure Rested (t : TextInput) : Prop where
  state : t.ctl.state = .ground true
  queue : t.queue = []
  iter : t.iter = []
  quick : t.quick = 0
  pending : t.pending = .active

/-- A read that finds a valid text delivers it up to the last U+A or U+34F. -/
theorem read_text (hU : TextLaws U) {t : TextInput} (ht : Rested t) {P R : List Char} (cr : Bool) {status : Status} (hse : status ≠ .end_) {len : Nat}
    (hl : normalizationBufferSize ≤ len) (hlP : (encode P).length + 4 ≤ len)
    (hP : P = [] ∨ ∃ x b, P = x ++ [b] ∧ isBoundary b = true) (hR : ∀ c ∈ R, isBoundary c = false)
    (hv : isBasicText U (P ++ R) = true) (hn : normChain U (P ++ R) = P ++ R) :
    ∃ t', readWithStatus U len t [.data (enc cr (P ++ R)) status] = { ret := .ok (encode P).length status, out := P, input := t', src := [] } ∧
      t'.queue = R ∧ t'.iter = [] ∧ t'.quick = 0 ∧ t'.pending = .active ∧
      t'.ctl.state = .ground (decide (P ++ R = [] ∨ (P ++ R).getLast? = some '\n')) := by
  obtain ⟨k, q, it, qu, pe⟩ := t
  obtain ⟨h1, h2, h3, h4, h5⟩ := ht
  simp only at h1 h2 h3 h4 h5
  subst h2 h3 h4 h5
  obtain ⟨v1, v2, v3⟩ := text_iff.1 hv
  have v4 := (substr_iff.1 v3).1
  have hF : Follows k [] := ⟨by simpa using h1, fun _ => rfl⟩
  obtain ⟨k', e1, hk⟩ := processRaw_enc (U := U) cr hF v4 (fun _ => v1)
  have hnP : normChain U P = P := by
    obtain ⟨n1, n2⟩ := (normChain_eq_iff hU).1 hn
    exact (normChain_eq_iff hU).2 ⟨nss_prefix hU.law n1, (pre_append.1 n2).1⟩
  have hlen : P.length < len + 1 := by
    have : ∀ s : List Char, s.length ≤ (encode s).length := by
      intro s
      induction s with
      | nil => simp
      | cons c s ih => rw [encode_cons, List.length_append, encodeChar_length, List.length_cons]; have := utf8Len_pos c; omega
    have := this P
    omega
  have hfin : ∀ st, st ≠ Status.end_ → finish k' (P ++ R).getLast? st = (k', []) := by
    intro st hst
    have hg : endGuard (P ++ R).getLast? = [] := by
      cases hb : (P ++ R).getLast? with
      | none => rfl
      | some c => simp [endGuard, v2 c hb]
    have hs := hk.1
    generalize (P ++ R).getLast? = b at hg ⊢
    simp [finish, finishState, hs, hg, hst]
  simp only [List.nil_append] at hk
  unfold readWithStatus
  rw [if_neg (by omega), drain_still ⟨rfl, rfl, by simp⟩]
  simp only [ne_eq, not_true_eq_false, if_false, nextEvent, e1, List.nil_append, encode_nil, List.length_nil, Nat.sub_zero]
  by_cases ha : status = .active
  · subst ha
    simp only [not_true_eq_false, if_false]
    rw [drain_whole hP hR hnP hlen hlP]
    exact ⟨_, rfl, rfl, rfl, rfl, rfl, hk.1⟩
  · simp only [ha, not_false_eq_true, if_true, hfin _ hse, List.append_nil]
    rw [drain_whole hP hR hnP hlen hlP]
    exact ⟨_, rfl, rfl, rfl, rfl, rfl, hk.1⟩

/-! ## A turn -/

/-- Between messages: nothing held back on either side, at the start of a line, and an inner stream that takes everything. -/
structure AtRest (d : Duplexer) : Prop where
  input : Rested d.input
  src : d.src = []
  output : WIdle d.output

theorem flush_idle {w : Writer} {g : Ground} (hg : w.state = .ground g) (hz : g ≠ .zwjOrPrepend) (hd : w.sink.dead = false) (hs : w.sink.script = []) :
    flush w = ({ w with expectStarter := true }, .ok) := by
  obtain ⟨b, cr, e, a, st, sq, ⟨se, de, sc⟩⟩ := w
  simp only at hg hd hs
  subst hg hd hs
  cases g <;> first | exact absurd rfl hz | rfl

/-- The ground state after a text said from the start of a line. -/
theorem groundNext_newline {m : List Char} : groundNext U .newline (.str m) = groundAfter (normChain U m) := by
  show groundFrom .newline (normChain U m) = _
  unfold groundFrom
  split
  · rename_i he; rw [he]; rfl
  · rfl

/-- One turn: what `TextString::from_text` makes of the message is sent, and heard up to its last U+A or U+34F. -/
theorem tell_text (hU : TextLaws U) {a b : Duplexer} (ha : AtRest a) (hb : AtRest b) {m P R : List Char} (hm : Acceptable U m) (hT : normChain U m = P ++ R)
    {status : Status} (hse : status ≠ .end_) {len : Nat} (hl : normalizationBufferSize ≤ len) (hlP : (encode P).length + 4 ≤ len)
    (hP : P = [] ∨ ∃ x b, P = x ++ [b] ∧ isBoundary b = true) (hR : ∀ c ∈ R, isBoundary c = false) :
    (tell U a b m status len).2 = (.op .ok, .op .ok, .read (.ok (encode P).length status) P) ∧
      (R = [] → P = [] ∨ P.getLast? = some '\n' → AtRest (tell U a b m status len).1.1 ∧ AtRest (tell U a b m status len).1.2) := by
  obtain ⟨ia, sa, oa⟩ := a
  obtain ⟨ib, sb, ob⟩ := b
  have hgood : Good U oa.expectStarter (.str m) := ⟨hm.1, fun _ => head_normChain hU hm.2.1⟩
  have hw := ha.output
  have hstep := step_good hU (op := .str m) rfl hw.state hw.buffer hw.dead hw.script hgood
  have hz : groundNext U .newline (.str m) ≠ .zwjOrPrepend := by
    rw [groundNext_newline, Ne, groundAfter_end_iff]
    exact fun hh => hh ((last_normChain_end_iff hU).2 hm.2.2)
  have e1 : dstep U { input := ia, src := sa, output := oa } (.op (.str m)) =
      ({ input := ia, src := sa, output := { oa with expectStarter := false, state := .ground (groundNext U .newline (.str m)), sink := { oa.sink with sent := oa.sink.sent ++ enc oa.crlf (normChain U m) } } }, .op .ok) := by
    simp only [dstep]
    rw [hstep]
    rfl
  have e2 : dstep U { input := ia, src := sa, output := { oa with expectStarter := false, state := .ground (groundNext U .newline (.str m)), sink := { oa.sink with sent := oa.sink.sent ++ enc oa.crlf (normChain U m) } } } (.op .flush) =
      ({ input := ia, src := sa, output := { oa with expectStarter := true, state := .ground (groundNext U .newline (.str m)), sink := { oa.sink with sent := oa.sink.sent ++ enc oa.crlf (normChain U m) } } }, .op .ok) := by
    simp only [dstep, step]
    rw [flush_idle (w := { oa with expectStarter := false, state := .ground (groundNext U .newline (.str m)), sink := { oa.sink with sent := oa.sink.sent ++ enc oa.crlf (normChain U m) } }) rfl hz hw.dead hw.script]
  have hsrc := hb.src
  have hin := hb.input
  have hdead := hb.output.dead
  simp only at hsrc hin hdead
  subst hsrc
  have hv := normChain_valid hU hm
  obtain ⟨t', r1, r2, r3, r4, r5, r6⟩ := read_text hU hin (P := P) (R := R) oa.crlf hse hl hlP hP hR (by rw [← hT]; exact hv)
    (by rw [← hT]; exact normChain_idem hU m)
  simp only [tell, e1, e2, List.nil_append, List.drop_left]
  have e3 : dstep U { input := ib, src := [.data (enc oa.crlf (normChain U m)) status], output := ob } (.read len) =
      ({ input := t', src := [], output := newline ob (decide ((encode P).length ≠ 0) && (encode P)[(encode P).length - 1]? == some 10) }, .read (.ok (encode P).length status) P) := by
    simp only [dstep, Duplexer.read, Duplexer.source, hdead, Bool.false_eq_true, if_false, hT, r1]
  rw [e3]
  refine ⟨rfl, ?_⟩
  rintro rfl hPe
  simp only [List.append_nil] at hT r6
  constructor
  · refine ⟨ha.input, ha.src, ⟨?_, hw.buffer, hw.ansi, hw.dead, hw.script⟩⟩
    show WState.ground (groundNext U .newline (.str m)) = _
    rw [groundNext_newline, hT]
    rcases hPe with rfl | hPe
    · rfl
    · simp [groundAfter, hPe]
  · refine ⟨⟨by rw [r6]; simp [hPe], r2, r3, r4, r5⟩, rfl, ?_⟩
    have ho := hb.output
    simp only at ho
    unfold newline
    split
    · exact ⟨rfl, ho.buffer, ho.ansi, ho.dead, ho.script⟩
    · exact ho

end Verif
