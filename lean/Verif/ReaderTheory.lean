import Verif.Reader
import Verif.ChainTheory

/-!
# Invariants of the reader
-/

namespace Verif
open Ucd
variable {U : Ucd}

/-! ## The queue -/

/-- A segment handed to the normalizer: ends with a boundary scalar. -/
def IsSeg (s : List Char) : Prop := ∃ x b, s = x ++ [b] ∧ isBoundary b = true

/-- `emitted` has been written out, `total` is everything that has been put into the queue so far. -/
structure Inv (U : Ucd) (t : TextInput) (emitted total : List Char) : Prop where
  ex : ∃ segs : List (List Char), total = segs.flatten ++ t.queue.drop t.quick ∧
    emitted ++ t.iter ++ t.queue.take t.quick = segs.flatMap (normChain U) ∧ ∀ s ∈ segs, IsSeg s
  le : t.quick ≤ t.queue.length
  or : t.quick ≠ 0 → t.iter = []

theorem isBoundary_iff {c : Char} : isBoundary c = true ↔ c = '\n' ∨ c = CGJ := by simp [isBoundary]

theorem boundary_inert (hU : TextLaws U) {c : Char} (h : isBoundary c = true) : U.Inert c := by
  rcases isBoundary_iff.1 h with rfl | rfl
  · exact hU.law.inert_nl
  · exact hU.law.inert_cgj

theorem boundary_assigned (hU : TextLaws U) {c : Char} (h : isBoundary c = true) : isAssigned U c = true := by
  rcases isBoundary_iff.1 h with rfl | rfl
  · simp [isAssigned, hU.assigned_ascii '\n' (by decide)]
  · simp [isAssigned, hU.assigned_cgj]

theorem boundary_end {c : Char} (h : isBoundary c = true) : isEnd c = true := by
  rcases isBoundary_iff.1 h with rfl | rfl
  · exact end_nl
  · exact end_cgj

theorem lastBoundary_none {q : List Char} (h : lastBoundary q = none) : ∀ c ∈ q, isBoundary c = false := by
  simp only [lastBoundary, Option.map_eq_none_iff, List.findIdx?_eq_none_iff, List.mem_reverse] at h
  intro c hc
  simpa using h c hc

theorem lastBoundary_some {q : List Char} {i : Nat} (h : lastBoundary q = some i) :
    1 ≤ i ∧ i ≤ q.length ∧ IsSeg (q.take i) ∧ ∀ c ∈ q.drop i, isBoundary c = false := by
  simp only [lastBoundary, Option.map_eq_some_iff, List.findIdx?_eq_some_iff_getElem] at h
  obtain ⟨j, ⟨hj, hb, hlt⟩, rfl⟩ := h
  simp only [List.length_reverse] at hj
  refine ⟨by omega, by omega, ?_, ?_⟩
  · refine ⟨q.take (q.length - j - 1), q[q.length - 1 - j], ?_, ?_⟩
    · conv => lhs; rw [show q.length - j = (q.length - j - 1) + 1 by omega, List.take_succ_eq_append_getElem (by omega)]
      congr 3; omega
    · rw [List.getElem_reverse] at hb; exact hb
  · intro c hc
    obtain ⟨i, hi, rfl⟩ := List.getElem_of_mem hc
    rw [List.length_drop] at hi
    have := hlt (j - 1 - i) (by omega)
    rw [List.getElem_reverse] at this
    simp only [List.getElem_drop]
    have e : q.length - j + i = q.length - 1 - (j - 1 - i) := by omega
    simp only [e]
    simpa using this

theorem quick_normChain (hU : TextLaws U) {s : List Char} (h : U.quick s = .yes) (ha : s.all U.assigned = true) : normChain U s = s := by
  apply normChain_of_assigned hU
  · simp [Ucd.isNfcStreamSafe, h]
  · intro c hc
    simp [isAssigned, List.all_eq_true.1 ha c hc]

theorem IsSeg.ne_nil {s : List Char} (h : IsSeg s) : s ≠ [] := by
  obtain ⟨x, b, rfl, -⟩ := h; simp

/-- Nothing more can be taken from the queue. -/
structure Idle (t : TextInput) : Prop where
  quick : t.quick = 0
  iter : t.iter = []
  queue : ∀ c ∈ t.queue, isBoundary c = false

/-- `queue_next` touches neither the control state nor the pending status, and moves scalars from the
queue to the output through the normalizer. -/
theorem queueNext_inv (hU : TextLaws U) {t : TextInput} {emitted total : List Char} (h : Inv U t emitted total) :
    (queueNext U t).2.ctl = t.ctl ∧ (queueNext U t).2.pending = t.pending ∧
    (∀ c, (queueNext U t).1 = some c → Inv U (queueNext U t).2 (emitted ++ [c]) total) ∧
    ((queueNext U t).1 = none → (queueNext U t).2 = t ∧ Idle t) := by
  obtain ⟨⟨segs, h1, h2, h3⟩, hle, hor⟩ := h
  unfold queueNext
  split
  · rename_i hq
    refine ⟨rfl, rfl, ?_, ?_⟩
    · intro c hc
      cases hqq : t.queue with
      | nil => rw [hqq] at hc; simp at hc
      | cons d q =>
        rw [hqq] at hc h1 h2 hle
        simp only [List.head?_cons, Option.some.injEq] at hc
        obtain ⟨n, hn⟩ : ∃ n, t.quick = n + 1 := ⟨t.quick - 1, by omega⟩
        refine ⟨⟨segs, ?_, ?_, h3⟩, ?_, ?_⟩
        · simp [h1, hn]
        · rw [hn] at h2; simp [hn, ← h2, hor hq, hc]
        · simp only [List.tail_cons]; simp at hle; omega
        · intro _; exact hor hq
    · intro hn
      have : t.queue = [] := by simpa using hn
      rw [this] at hle; simp at hle; omega
  · rename_i hq
    have hq : t.quick = 0 := by omega
    cases hi : t.iter with
    | cons c r =>
      simp only [true_and]
      refine ⟨?_, by simp⟩
      intro d hd
      simp only [Option.some.injEq] at hd
      subst hd
      refine ⟨⟨segs, h1, ?_, h3⟩, hle, fun h => absurd hq h⟩
      rw [hi] at h2; simpa using h2
    | nil =>
      simp only
      cases hb : lastBoundary t.queue with
      | none => exact ⟨rfl, rfl, by simp, fun _ => ⟨rfl, hq, hi, lastBoundary_none hb⟩⟩
      | some index =>
        simp only
        obtain ⟨hi1, hi2, hseg, hrest⟩ := lastBoundary_some hb
        rw [hq] at h1 h2
        rw [hi] at h2
        simp only [List.take_zero, List.append_nil, List.drop_zero] at h1 h2
        have hsegs : ∀ s ∈ segs ++ [t.queue.take index], IsSeg s := by
          intro s hs
          simp only [List.mem_append, List.mem_singleton] at hs
          rcases hs with hs | rfl
          · exact h3 s hs
          · exact hseg
        have htot : total = (segs ++ [t.queue.take index]).flatten ++ t.queue.drop index := by
          simp [h1]
        split
        · rename_i hquick
          have hnc := quick_normChain hU hquick.1 hquick.2
          refine ⟨rfl, rfl, ?_, ?_⟩
          · intro c hc
            cases hqq : t.queue with
            | nil => rw [hqq] at hc; simp at hc
            | cons d q =>
              rw [hqq] at hc htot hsegs hnc hi2
              simp only [List.head?_cons, Option.some.injEq] at hc
              obtain ⟨n, hn⟩ : ∃ n, index = n + 1 := ⟨index - 1, by omega⟩
              subst hn
              refine ⟨⟨segs ++ [(d :: q).take (n + 1)], ?_, ?_, hsegs⟩, ?_, ?_⟩
              · rw [htot]; simp
              · simp only [List.flatMap_append, List.flatMap_singleton, hnc, ← h2]
                simp [hc]
              · simp; simp at hi2; omega
              · intro _; rfl
          · intro hn
            have : t.queue = [] := by simpa using hn
            rw [this] at hi2; simp at hi2; omega
        · cases hnc : normChain U (t.queue.take index) with
          | nil => exact absurd hnc (normChain_ne_nil hU hseg.ne_nil)
          | cons c r =>
            simp only [true_and]
            refine ⟨?_, by simp⟩
            intro d hd
            simp only [Option.some.injEq] at hd
            subst hd
            refine ⟨⟨segs ++ [t.queue.take index], ?_, ?_, hsegs⟩, by simp [hq], fun h => absurd hq h⟩
            · simp only [hq, List.drop_zero]; exact htot
            · simp [hq, hnc, ← h2]

/-- A drain loop with enough fuel and at least four bytes of room does not panic; what it writes fits. -/
theorem drain_inv (hU : TextLaws U) : ∀ (fuel room : Nat) (t : TextInput) (emitted total : List Char), Inv U t emitted total →
    maxUtf8Size ≤ room → room < fuel →
    ∀ stop out t', drain U fuel room t = (stop, out, t') →
    Inv U t' (emitted ++ out) total ∧ t'.ctl = t.ctl ∧ t'.pending = t.pending ∧ (encode out).length ≤ room ∧ stop ≠ .panic ∧
    (stop = .empty → maxUtf8Size ≤ room - (encode out).length ∧ Idle t') ∧
    (stop = .full → room - (encode out).length < maxUtf8Size) := by
  intro fuel
  induction fuel with
  | zero => intro room t emitted total _ _ hf; omega
  | succ fuel ih =>
    intro room t emitted total hinv hroom hf stop out t' hd
    obtain ⟨hc, hp, hs, hn⟩ := queueNext_inv hU hinv
    rw [drain] at hd
    revert hd hc hp hs hn
    generalize queueNext U t = qn
    obtain ⟨o, t1⟩ := qn
    cases o with
    | none =>
      simp only
      intro hd hc hp _ hn
      simp only [Prod.mk.injEq] at hd
      obtain ⟨rfl, rfl, rfl⟩ := hd
      obtain ⟨rfl, hidle⟩ := hn trivial
      refine ⟨by simpa using hinv, hc, hp, by simp [encode_nil], by simp, fun _ => ⟨by simpa [encode_nil] using hroom, hidle⟩, by simp⟩
    | some c =>
      simp only
      intro hd hc hp hs _
      have h1 := utf8Len_pos c
      have h4 := utf8Len_le c
      have hm : maxUtf8Size = 4 := rfl
      rw [if_neg (by omega)] at hd
      have hinv1 := hs c rfl
      have hel : (encode [c]).length = utf8Len c := by simp [encode, encodeChar_length]
      split at hd
      · rename_i hfull
        simp only [Prod.mk.injEq] at hd
        obtain ⟨rfl, rfl, rfl⟩ := hd
        refine ⟨hinv1, hc, hp, by omega, by simp, by simp, ?_⟩
        intro _; omega
      · rename_i hmore
        cases hrec : drain U fuel (room - utf8Len c) t1 with
        | mk stop1 p =>
          obtain ⟨out1, t2⟩ := p
          rw [hrec] at hd
          simp only [Prod.mk.injEq] at hd
          obtain ⟨rfl, rfl, rfl⟩ := hd
          obtain ⟨i1, i2, i3, i4, i5, i6, i7⟩ := ih _ _ _ _ hinv1 (by omega) (by omega) _ _ _ hrec
          have he : (encode (c :: out1)).length = utf8Len c + (encode out1).length := by
            rw [encode_cons, List.length_append, encodeChar_length]
          refine ⟨by simpa using i1, i2.trans hc, i3.trans hp, by omega, i5, ?_, ?_⟩
          · intro h; exact ⟨by have := (i6 h).1; omega, (i6 h).2⟩
          · intro h; have := i7 h; omega

/-- How much the queue still yields before it needs more input. -/
def yields (U : Ucd) (q : List Char) : Nat :=
  match lastBoundary q with
  | none => 0
  | some i => (normChain U (q.take i)).length

/-- How many scalars `queue_next` still yields. -/
def remaining (U : Ucd) (t : TextInput) : Nat := t.quick + t.iter.length + yields U (t.queue.drop t.quick)

theorem lastBoundary_eq_none {q : List Char} (h : ∀ c ∈ q, isBoundary c = false) : lastBoundary q = none := by
  simp only [lastBoundary, Option.map_eq_none_iff, List.findIdx?_eq_none_iff, List.mem_reverse]
  intro c hc
  simpa using h c hc

theorem yields_zero {q : List Char} (h : ∀ c ∈ q, isBoundary c = false) : yields U q = 0 := by
  rw [yields, lastBoundary_eq_none h]

theorem queueNext_remaining (hU : TextLaws U) {t : TextInput} {c : Char} (h : (queueNext U t).1 = some c) :
    remaining U (queueNext U t).2 < remaining U t := by
  unfold queueNext at h ⊢
  split at h
  · rename_i hq
    rw [if_pos hq]
    simp only [remaining]
    cases hqq : t.queue with
    | nil => rw [hqq] at h; simp at h
    | cons d q =>
      obtain ⟨n, hn⟩ : ∃ n, t.quick = n + 1 := ⟨t.quick - 1, by omega⟩
      simp only [hn, List.tail_cons, Nat.add_sub_cancel, List.drop_succ_cons]
      omega
  · rename_i hq
    rw [if_neg hq]
    have hq : t.quick = 0 := by omega
    cases hi : t.iter with
    | cons c r =>
      simp only [remaining, hi, List.length_cons]
      omega
    | nil =>
      rw [hi] at h
      simp only at h ⊢
      cases hb : lastBoundary t.queue with
      | none => rw [hb] at h; simp at h
      | some index =>
        rw [hb] at h
        simp only at h ⊢
        obtain ⟨hi1, hi2, hseg, hrest⟩ := lastBoundary_some hb
        have hrem : remaining U t = (normChain U (t.queue.take index)).length := by
          simp [remaining, hq, hi, yields, hb]
        rw [hrem]
        split
        · rename_i hquick
          rw [quick_normChain hU hquick.1 hquick.2]
          cases hqq : t.queue with
          | nil => rw [hqq] at hi2; simp at hi2; omega
          | cons d q =>
            obtain ⟨n, rfl⟩ : ∃ n, index = n + 1 := ⟨index - 1, by omega⟩
            rw [hqq] at hrest hi2
            simp only [List.drop_succ_cons] at hrest
            simp only [remaining, Nat.add_sub_cancel, List.tail_cons, List.length_nil, Nat.add_zero, yields_zero hrest,
              List.length_take, List.length_cons]
            simp only [List.length_cons] at hi2
            omega
        · rename_i hquick
          rw [if_neg hquick] at h
          cases hnc : normChain U (t.queue.take index) with
          | nil => rw [hnc] at h; simp at h
          | cons c r => simp [remaining, hq, yields_zero hrest]

theorem queueNext_none {t : TextInput} (h : Idle t) : queueNext U t = (none, t) := by
  unfold queueNext
  rw [if_neg (by simp [h.quick]), h.iter]
  simp only [lastBoundary_eq_none h.queue]

/-- A drain loop that runs out of room has made progress. -/
theorem drain_full (hU : TextLaws U) : ∀ (fuel room : Nat) (t : TextInput) (out : List Char) (t' : TextInput),
    drain U fuel room t = (.full, out, t') → remaining U t' < remaining U t := by
  intro fuel
  induction fuel with
  | zero => intro room t out t' h; simp [drain] at h
  | succ fuel ih =>
    intro room t out t' h
    have hr := @queueNext_remaining U hU t
    rw [drain] at h
    revert h hr
    generalize queueNext U t = qn
    obtain ⟨o, t1⟩ := qn
    cases o with
    | none => simp
    | some c =>
      intro h hr
      simp only at h hr
      have hr := hr (c := c) rfl
      split at h
      · simp at h
      · split at h
        · simp at h; rw [← h.2]; exact hr
        · cases hrec : drain U fuel (room - utf8Len c) t1 with
          | mk stop1 p =>
            obtain ⟨out1, t2⟩ := p
            rw [hrec] at h
            simp only [Prod.mk.injEq] at h
            obtain ⟨rfl, _, rfl⟩ := h
            exact Nat.lt_trans (ih _ _ _ _ hrec) hr

/-! ## Which segments are normalized -/

/-- Cut the queue after its last boundary. -/
def cut (segs : List (List Char)) (q : List Char) : List (List Char) × List Char :=
  match lastBoundary q with
  | none => (segs, q)
  | some i => (segs ++ [q.take i], q.drop i)

theorem cut_flatten (segs : List (List Char)) (q : List Char) : (cut segs q).1.flatten ++ (cut segs q).2 = segs.flatten ++ q := by
  unfold cut
  split
  · rfl
  · simp

theorem cut_idle {q : List Char} (h : ∀ c ∈ q, isBoundary c = false) (segs : List (List Char)) : cut segs q = (segs, q) := by
  rw [cut, lastBoundary_eq_none h]

theorem cut_seg {segs : List (List Char)} (h : ∀ s ∈ segs, IsSeg s) (q : List Char) : ∀ s ∈ (cut segs q).1, IsSeg s := by
  unfold cut
  split
  · exact h
  · rename_i i hi
    intro s hs
    simp only [List.mem_append, List.mem_singleton] at hs
    rcases hs with hs | rfl
    · exact h s hs
    · exact (lastBoundary_some hi).2.2.1

/-- The invariant with the segments determined: `S` are the segments cut off so far and the rest. -/
structure InvS (U : Ucd) (t : TextInput) (emitted : List Char) (S : List (List Char) × List Char) : Prop where
  ex : ∃ segs : List (List Char), emitted ++ t.iter ++ t.queue.take t.quick = segs.flatMap (normChain U) ∧
    cut segs (t.queue.drop t.quick) = S
  or : t.quick ≠ 0 → t.iter = []

theorem queueNext_segs (hU : TextLaws U) {t : TextInput} {emitted : List Char} {S : List (List Char) × List Char}
    (h : InvS U t emitted S) {c : Char} (hc : (queueNext U t).1 = some c) : InvS U (queueNext U t).2 (emitted ++ [c]) S := by
  obtain ⟨⟨segs, h1, h2⟩, hor⟩ := h
  unfold queueNext at hc ⊢
  split at hc
  · rename_i hq
    rw [if_pos hq]
    cases hqq : t.queue with
    | nil => rw [hqq] at hc; simp at hc
    | cons d q =>
      rw [hqq] at hc h1 h2
      simp only [List.head?_cons, Option.some.injEq] at hc
      obtain ⟨n, hn⟩ : ∃ n, t.quick = n + 1 := ⟨t.quick - 1, by omega⟩
      refine ⟨⟨segs, ?_, ?_⟩, fun _ => hor hq⟩
      · rw [hn] at h1; simp [hn, ← h1, hor hq, hc]
      · simpa [hn] using h2
  · rename_i hq
    rw [if_neg hq]
    have hq : t.quick = 0 := by omega
    cases hi : t.iter with
    | cons d r =>
      rw [hi] at hc
      simp only [Option.some.injEq] at hc
      subst hc
      refine ⟨⟨segs, ?_, h2⟩, fun h => absurd hq h⟩
      rw [hi] at h1; simpa using h1
    | nil =>
      rw [hi] at hc
      simp only at hc ⊢
      cases hb : lastBoundary t.queue with
      | none => rw [hb] at hc; simp at hc
      | some index =>
        rw [hb] at hc
        simp only at hc ⊢
        obtain ⟨hi1, hi2, hseg, hrest⟩ := lastBoundary_some hb
        rw [hq] at h1 h2
        rw [hi] at h1
        simp only [List.take_zero, List.append_nil, List.drop_zero] at h1 h2
        rw [cut, hb] at h2
        simp only at h2
        split
        · rename_i hquick
          have hnc := quick_normChain hU hquick.1 hquick.2
          rw [if_pos hquick] at hc
          cases hqq : t.queue with
          | nil => rw [hqq] at hc; simp at hc
          | cons d q =>
            rw [hqq] at hc h2 hnc hrest
            simp only [List.head?_cons, Option.some.injEq] at hc
            obtain ⟨n, hn⟩ : ∃ n, index = n + 1 := ⟨index - 1, by omega⟩
            subst hn
            simp only [List.drop_succ_cons] at hrest
            refine ⟨⟨segs ++ [(d :: q).take (n + 1)], ?_, ?_⟩, fun _ => rfl⟩
            · simp only [List.flatMap_append, List.flatMap_singleton, hnc, ← h1]
              simp [hc]
            · simp only [Nat.add_sub_cancel, List.tail_cons]
              rw [cut_idle hrest, ← h2]
              simp
        · rename_i hquick
          rw [if_neg hquick] at hc
          cases hnc : normChain U (t.queue.take index) with
          | nil => rw [hnc] at hc; simp at hc
          | cons d r =>
            rw [hnc] at hc
            simp only [Option.some.injEq] at hc
            subst hc
            refine ⟨⟨segs ++ [t.queue.take index], ?_, ?_⟩, fun h => absurd hq h⟩
            · simp [hq, hnc, ← h1]
            · simp only [hq, List.drop_zero]
              rw [cut_idle hrest, ← h2]

theorem drain_segs (hU : TextLaws U) : ∀ (fuel room : Nat) (t : TextInput) (emitted total : List Char) (S : List (List Char) × List Char),
    Inv U t emitted total → InvS U t emitted S → ∀ stop out t', drain U fuel room t = (stop, out, t') → stop ≠ .panic →
    InvS U t' (emitted ++ out) S := by
  intro fuel
  induction fuel with
  | zero =>
    intro room t emitted total S _ _ stop out t' h hp
    simp [drain] at h
    exact absurd h.1.symm hp
  | succ fuel ih =>
    intro room t emitted total S hinv hS stop out t' hd hp
    obtain ⟨-, -, hs, hn⟩ := queueNext_inv hU hinv
    have hq := @queueNext_segs U hU t emitted S hS
    rw [drain] at hd
    revert hd hs hn hq
    generalize queueNext U t = qn
    obtain ⟨o, t1⟩ := qn
    cases o with
    | none =>
      simp only
      intro hd _ hn _
      simp only [Prod.mk.injEq] at hd
      obtain ⟨rfl, rfl, rfl⟩ := hd
      rw [(hn trivial).1]
      simpa using hS
    | some c =>
      simp only
      intro hd hs _ hq
      have hq := hq (c := c) rfl
      have hs := hs c rfl
      split at hd
      · simp only [Prod.mk.injEq] at hd; exact absurd hd.1.symm hp
      · split at hd
        · simp only [Prod.mk.injEq] at hd
          obtain ⟨rfl, rfl, rfl⟩ := hd
          exact hq
        · cases hrec : drain U fuel (room - utf8Len c) t1 with
          | mk stop1 p =>
            obtain ⟨out1, t2⟩ := p
            rw [hrec] at hd
            simp only [Prod.mk.injEq] at hd
            obtain ⟨rfl, rfl, rfl⟩ := hd
            have := ih _ _ _ _ _ hs hq _ _ _ hrec hp
            simpa using this

theorem InvS.append {t : TextInput} {emitted : List Char} {S : List (List Char) × List Char} (h : InvS U t emitted S) (hidle : Idle t)
    (k : Ctl) (o : List Char) (p : Status) :
    InvS U { t with ctl := k, queue := t.queue ++ o, pending := p } emitted (cut S.1 (S.2 ++ o)) := by
  obtain ⟨⟨segs, h1, h2⟩, hor⟩ := h
  rw [hidle.quick, List.drop_zero, cut_idle hidle.queue] at h2
  refine ⟨⟨segs, ?_, ?_⟩, hor⟩
  · simpa [hidle.quick] using h1
  · simp only [hidle.quick, List.drop_zero, ← h2]

theorem InvS.congr {t t' : TextInput} {emitted : List Char} {S : List (List Char) × List Char} (h : InvS U t emitted S)
    (h1 : t'.queue = t.queue) (h2 : t'.iter = t.iter) (h3 : t'.quick = t.quick) : InvS U t' emitted S := by
  obtain ⟨ex, hor⟩ := h
  exact ⟨by rw [h1, h2, h3]; exact ex, by rw [h2, h3]; exact hor⟩

theorem InvS.idle {t : TextInput} {emitted : List Char} {S : List (List Char) × List Char} (h : InvS U t emitted S) (hi : Idle t) :
    emitted = S.1.flatMap (normChain U) ∧ t.queue = S.2 := by
  obtain ⟨⟨segs, h1, h2⟩, -⟩ := h
  rw [hi.quick, List.drop_zero, cut_idle hi.queue] at h2
  rw [← h2]
  simpa [hi.quick, hi.iter] using h1

/-! ## What goes into the queue -/

/-- The effect of one successful inner read on the control state and on everything queued so far. -/
def absorb (U : Ucd) (kt : Ctl × List Char) (s : List Char) (status : Status) : Ctl × List Char :=
  let (k, o) := processRaw U kt.1 s
  let total := kt.2 ++ o
  if status = .active then (k, total)
  else
    let (k, o) := finish k total.getLast? status
    ({ k with expectStarter := true }, total ++ o)

/-- The same over a list of inner reads; errors contribute nothing. -/
def absorbAll (U : Ucd) (kt : Ctl × List Char) : List Event → Ctl × List Char
  | [] => kt
  | .data s st :: es => absorbAll U (absorb U kt s st) es
  | .err :: es => absorbAll U kt es

theorem absorbAll_append {kt : Ctl × List Char} {a b : List Event} : absorbAll U kt (a ++ b) = absorbAll U (absorbAll U kt a) b := by
  induction a generalizing kt with
  | nil => rfl
  | cons e a ih => cases e <;> simp [absorbAll, ih]

theorem absorb_grows (kt : Ctl × List Char) (s : List Char) (st : Status) :
    (absorb U kt s st).2 = kt.2 ++ (absorb U kt s st).2.drop kt.2.length := by
  unfold absorb
  cases processRaw U kt.1 s with
  | mk k o =>
    simp only
    split
    · simp
    · cases finish k (kt.2 ++ o).getLast? st with
      | mk k' o' => simp

/-- The segments cut off over a list of inner reads, and the rest. -/
def segAll (U : Ucd) (kt : Ctl × List Char) (S : List (List Char) × List Char) : List Event → List (List Char) × List Char
  | [] => S
  | .data s st :: es => segAll U (absorb U kt s st) (cut S.1 (S.2 ++ (absorb U kt s st).2.drop kt.2.length)) es
  | .err :: es => segAll U kt S es

theorem segAll_append {kt : Ctl × List Char} {S : List (List Char) × List Char} {a b : List Event} :
    segAll U kt S (a ++ b) = segAll U (absorbAll U kt a) (segAll U kt S a) b := by
  induction a generalizing kt S with
  | nil => rfl
  | cons e a ih => cases e <;> simp [absorbAll, segAll, ih]

theorem segAll_total (es : List Event) : ∀ (kt : Ctl × List Char) (S : List (List Char) × List Char), S.1.flatten ++ S.2 = kt.2 →
    (segAll U kt S es).1.flatten ++ (segAll U kt S es).2 = (absorbAll U kt es).2 := by
  induction es with
  | nil => intro kt S h; exact h
  | cons e es ih =>
    intro kt S h
    cases e with
    | data s st =>
      refine ih _ _ ?_
      rw [cut_flatten, ← List.append_assoc, h]
      exact (absorb_grows kt s st).symm
    | err => exact ih _ _ h

theorem segAll_seg (es : List Event) : ∀ (kt : Ctl × List Char) (S : List (List Char) × List Char), (∀ s ∈ S.1, IsSeg s) →
    ∀ s ∈ (segAll U kt S es).1, IsSeg s := by
  induction es with
  | nil => intro kt S h; exact h
  | cons e es ih =>
    intro kt S h
    cases e with
    | data s st => exact ih _ _ (cut_seg h _)
    | err => exact ih _ _ h

/-- The scalar the queue ends with, and the one everything queued so far ends with, are the same or
both allowed at the end. -/
theorem finish_back {t : TextInput} {emitted total : List Char} (h : Inv U t emitted total)
    (hidle : Idle t) (k : Ctl) (o : List Char) (st : Status) :
    finish k (t.queue ++ o).getLast? st = finish k (total ++ o).getLast? st := by
  obtain ⟨⟨segs, h1, h2, h3⟩, hle, hor⟩ := h
  have key : (t.queue ++ o).getLast? = (total ++ o).getLast? ∨
      ((∀ c ∈ (t.queue ++ o).getLast?, isEnd c = true) ∧ (∀ c ∈ (total ++ o).getLast?, isEnd c = true)) := by
    rw [List.getLast?_append, List.getLast?_append]
    cases ho : o.getLast? with
    | some l => left; simp
    | none =>
      simp only [Option.none_or]
      by_cases hd : t.queue.drop t.quick = []
      · right
        have hseg : ∀ s : List (List Char), (∀ x ∈ s, IsSeg x) → ∀ c ∈ s.flatten.getLast?, isEnd c = true := by
          intro s
          induction s with
          | nil => simp
          | cons a s ih =>
            intro hs c hc
            rw [List.flatten_cons, List.getLast?_append] at hc
            obtain ⟨x, b, rfl, hb⟩ := hs a (by simp)
            cases hl : s.flatten.getLast? with
            | some l =>
              rw [hl] at hc
              simp at hc
              rw [← hc]
              exact ih (fun x hx => hs x (by simp [hx])) l (by rw [hl]; rfl)
            | none =>
              rw [hl] at hc
              simp at hc
              rw [← hc]; exact boundary_end hb
        rw [hd, List.append_nil] at h1
        have hT : ∀ c ∈ total.getLast?, isEnd c = true := by rw [h1]; exact hseg segs h3
        refine ⟨?_, hT⟩
        rw [hidle.quick, List.drop_zero] at hd
        rw [hd]; simp
      · left
        have : t.queue.getLast? = (t.queue.drop t.quick).getLast? := by
          conv => lhs; rw [← List.take_append_drop t.quick t.queue]
          rw [List.getLast?_append]
          cases hl : (t.queue.drop t.quick).getLast? with
          | none => exact absurd (List.getLast?_eq_none_iff.1 hl) hd
          | some l => rfl
        rw [this, h1, List.getLast?_append]
        cases hl : (t.queue.drop t.quick).getLast? with
        | none => exact absurd (List.getLast?_eq_none_iff.1 hl) hd
        | some l => rfl
  rcases key with key | ⟨k1, k2⟩
  · rw [key]
  · have e : ∀ x : Option Char, (∀ c ∈ x, isEnd c = true) → ∀ p : List Char, endGuard (p.getLast?.or x) = endGuard p.getLast? := by
      intro x hx p
      cases p.getLast? with
      | some l => rfl
      | none =>
        cases x with
        | none => rfl
        | some l => simp [endGuard, hx l rfl]
    simp only [finish, e _ k1, e _ k2]

/-- The reader's state against the history `es` of inner reads: `emitted` is everything written to
buffers so far. -/
structure Rel (U : Ucd) (k0 : Ctl) (t : TextInput) (emitted : List Char) (es : List Event) : Prop where
  inv : Inv U t emitted (absorbAll U (k0, []) es).2
  ctl : t.pending = .active → t.ctl = (absorbAll U (k0, []) es).1
  ctlPending : t.pending ≠ .active → { t.ctl with expectStarter := true } = (absorbAll U (k0, []) es).1
  segs : InvS U t emitted (segAll U (k0, []) ([], []) es)

theorem Rel.init (nel lsps : Bool) : Rel U (TextInput.new nel lsps).ctl (TextInput.new nel lsps) [] [] :=
  ⟨⟨⟨[], rfl, rfl, by simp⟩, Nat.le_refl _, by simp [TextInput.new]⟩, fun _ => rfl, fun h => absurd rfl h,
    ⟨⟨[], rfl, rfl⟩, fun h => absurd rfl h⟩⟩

/-- The inner read a call made, if any. -/
inductive Consumed : List Event → List Event → List Event → Prop
  | none (src) : Consumed src [] src
  | one (e src) : Consumed (e :: src) [e] src
  | eof : Consumed [] [.data [] .end_] []

theorem Inv.append {t : TextInput} {emitted total : List Char} (h : Inv U t emitted total) (hidle : Idle t) (k : Ctl) (o : List Char) (p : Status) :
    Inv U { t with ctl := k, queue := t.queue ++ o, pending := p } emitted (total ++ o) := by
  obtain ⟨⟨segs, h1, h2, h3⟩, hle, hor⟩ := h
  have hq := hidle.quick
  refine ⟨⟨segs, ?_, ?_, h3⟩, ?_, hor⟩
  · simp [h1, hq]
  · simpa [hq] using h2
  · simp; omega

theorem Inv.congr {t t' : TextInput} {emitted total : List Char} (h : Inv U t emitted total)
    (h1 : t'.queue = t.queue) (h2 : t'.iter = t.iter) (h3 : t'.quick = t.quick) : Inv U t' emitted total := by
  obtain ⟨ex, hle, hor⟩ := h
  exact ⟨by rw [h1, h2, h3]; exact ex, by rw [h1, h3]; exact hle, by rw [h2, h3]; exact hor⟩

/-- Everything has been turned into text, and the text is complete. -/
def Settled (kt : Ctl × List Char) : Prop := kt.1.state = .ground true ∧ (kt.2 = [] ∨ kt.2.getLast? = some '\n')

/-- Reading on at the end adds nothing to a complete text. -/
theorem processRaw_nil (k : Ctl) : processRaw U k [] = ({ k with atStart := false }, []) := by
  unfold processRaw
  have : (if (k.atStart && ([] : List Char).head? == some BOM) = true then ([] : List Char).tail else []) = [] := by
    split <;> rfl
  simp only [this, feed]

theorem finish_settled {k : Ctl} (h : k.state = .ground true) {b : Option Char} (hb : ∀ c ∈ b, isEnd c = true) (st : Status) :
    finish k b st = (k, []) := by
  have : endGuard b = [] := by
    cases b with
    | none => rfl
    | some c => simp [endGuard, hb c rfl]
  simp [finish, finishState, h, this]

theorem Inv.settled {t : TextInput} {emitted T : List Char} (h : Inv U t emitted T) (hi : Idle t)
    (hT : T = [] ∨ T.getLast? = some '\n') : t.queue = [] := by
  obtain ⟨⟨segs, h1, h2, h3⟩, -, -⟩ := h
  rw [hi.quick] at h1
  simp only [List.drop_zero] at h1
  rcases hT with hT | hT
  · rw [h1] at hT; exact (List.append_eq_nil_iff.1 hT).2
  · rcases List.eq_nil_or_concat t.queue with hq | ⟨q, c, hq⟩
    · exact hq
    · rw [h1, hq, List.concat_eq_append, ← List.append_assoc] at hT
      simp only [List.getLast?_append, List.getLast?_singleton, Option.some_or, Option.some.injEq] at hT
      have := hi.queue c (by simp [hq])
      rw [hT] at this
      simp [isBoundary] at this

/-- Every call of `read_with_status` keeps the relation, never panics, and returns the number of bytes
it has written, which fits the buffer. -/
theorem read_rel (hU : TextLaws U) {k0 : Ctl} {t : TextInput} {emitted : List Char} {es src : List Event} {len : Nat}
    (h : Rel U k0 t emitted es) {r : ReadResult} (hr : readWithStatus U len t src = r) :
    (len < normalizationBufferSize → r = { ret := .invalidInput, out := [], input := t, src := src }) ∧
    (normalizationBufferSize ≤ len →
      ∃ es', Consumed src es' r.src ∧ Rel U k0 r.input (emitted ++ r.out) (es ++ es') ∧ (encode r.out).length ≤ len ∧
        (es' = [.err] → r.ret = .sourceError) ∧
        (es' ≠ [.err] → ∃ st, r.ret = .ok (encode r.out).length st ∧
          (st ≠ .active → (∃ s, es' = [.data s st]) ∧ Idle r.input)) ∧
        (es' = [] → (t.pending ≠ .active ∧ r.input.pending = .active) ∨
          (r.input.pending = t.pending ∧ remaining U r.input < remaining U t)) ∧
        (es' = [.data [] .end_] → Settled (absorbAll U (k0, []) es) → ∃ n, r.ret = .ok n .end_)) := by
  subst hr
  have hm : maxUtf8Size = 4 := rfl
  have hN : normalizationBufferSize = 136 := rfl
  unfold readWithStatus
  refine ⟨fun hl => by rw [if_pos hl], ?_⟩
  intro hl
  rw [if_neg (by omega)]
  obtain ⟨hinv, hctl, hctlp, hsegs⟩ := h
  cases hd : drain U (len + 1) len t with
  | mk stop p =>
    obtain ⟨out, t1⟩ := p
    obtain ⟨i1, i2, i3, i4, i5, i6, i7⟩ := drain_inv hU _ _ _ _ _ hinv (by omega) (by omega) _ _ _ hd
    have s1 := drain_segs hU _ _ _ _ _ _ hinv hsegs _ _ _ hd i5
    cases stop with
    | panic => exact absurd rfl i5
    | full =>
      refine ⟨[], .none _, ⟨by simpa using i1, by simpa [i2, i3] using hctl, by simpa [i2, i3] using hctlp, by simpa using s1⟩, i4, by simp, ?_,
        fun _ => Or.inr ⟨i3, drain_full hU _ _ _ _ _ hd⟩, by simp⟩
      intro _
      exact ⟨.active, rfl, by simp⟩
    | empty =>
      simp only
      obtain ⟨j1, hidle⟩ := i6 rfl
      split
      · rename_i hp
        refine ⟨[], .none _, ?_, i4, by simp, ?_, fun _ => Or.inl ⟨i3 ▸ hp, rfl⟩, by simp⟩
        · rw [List.append_nil]
          refine ⟨i1.congr rfl rfl rfl, ?_, by simp, s1.congr rfl rfl rfl⟩
          intro _
          rw [i3] at hp
          rw [← hctlp hp, ← i2]
        · intro _
          exact ⟨.active, rfl, by simp⟩
      · rename_i hp
        have hp : t1.pending = .active := by
          apply Classical.byContradiction; exact hp
        have hp0 : t.pending = .active := i3 ▸ hp
        have hk := hctl hp0
        cases he : nextEvent src with
        | mk e src' =>
        have hcons : Consumed src [e] src' := by
          cases src with
          | nil => simp only [nextEvent, Prod.mk.injEq] at he; rw [← he.1, ← he.2]; exact .eof
          | cons e' src => simp only [nextEvent, Prod.mk.injEq] at he; rw [← he.1, ← he.2]; exact .one _ _
        cases e with
        | err =>
          simp only
          refine ⟨[.err], hcons, ⟨?_, ?_, ?_, ?_⟩, i4, by simp, by simp, by simp, by simp⟩
          · simpa [absorbAll_append, absorbAll] using i1
          · intro _; rw [i2, hk, absorbAll_append]; rfl
          · intro h; exact absurd hp h
          · simpa [segAll_append, segAll] using s1
        | data sdat status =>
          simp only
          -- the queue after processing
          have hab : absorbAll U (k0, []) (es ++ [.data sdat status]) = absorb U (absorbAll U (k0, []) es) sdat status := by
            rw [absorbAll_append]; rfl
          have hsb : segAll U (k0, []) ([], []) (es ++ [.data sdat status]) =
              cut (segAll U (k0, []) ([], []) es).1 ((segAll U (k0, []) ([], []) es).2 ++
                (absorb U (absorbAll U (k0, []) es) sdat status).2.drop (absorbAll U (k0, []) es).2.length) := by
            rw [segAll_append]; rfl
          generalize hA : absorbAll U (k0, []) es = A at *
          obtain ⟨kA, TA⟩ := A
          simp only at hk hinv i1
          have hk1 : t1.ctl = kA := i2.trans hk
          cases hpr : processRaw U t1.ctl sdat with
          | mk k1 o1 =>
          simp only
          have hpr' := hpr
          rw [hk1] at hpr'
          -- state before the second loop
          have hmid : ∃ t2 : TextInput,
              (if status ≠ .active then
                { t1 with ctl := (finish k1 (t1.queue ++ o1).getLast? status).1,
                          queue := t1.queue ++ o1 ++ (finish k1 (t1.queue ++ o1).getLast? status).2 }
              else { t1 with ctl := k1, queue := t1.queue ++ o1 }) = t2 ∧
              Inv U t2 (emitted ++ out) (absorb U (kA, TA) sdat status).2 ∧ t2.pending = .active ∧
              (status = .active → t2.ctl = (absorb U (kA, TA) sdat status).1) ∧
              (status ≠ .active → { t2.ctl with expectStarter := true } = (absorb U (kA, TA) sdat status).1) ∧
              InvS U t2 (emitted ++ out) (segAll U (k0, []) ([], []) (es ++ [.data sdat status])) := by
            refine ⟨_, rfl, ?_⟩
            rw [hsb]
            simp only [absorb, hpr']
            by_cases hs : status = .active
            · subst hs
              simp only [ne_eq, not_true_eq_false, if_false, if_true]
              refine ⟨?_, hp, by simp, by simp, ?_⟩
              · have := i1.append hidle k1 o1 .active
                rwa [← hp] at this
              · have := s1.append hidle k1 o1 .active
                rw [← hp] at this
                simpa using this
            · simp only [ne_eq, hs, not_false_eq_true, if_true, if_false]
              rw [finish_back i1 hidle]
              refine ⟨?_, hp, by simp, by simp, ?_⟩
              · have := i1.append hidle (finish k1 (TA ++ o1).getLast? status).1 (o1 ++ (finish k1 (TA ++ o1).getLast? status).2) t1.pending
                simpa [List.append_assoc] using this
              · have := s1.append hidle (finish k1 (TA ++ o1).getLast? status).1 (o1 ++ (finish k1 (TA ++ o1).getLast? status).2) t1.pending
                simpa [List.append_assoc] using this
          obtain ⟨t2, ht2, inv2, hp2, hc2, hc2', seg2⟩ := hmid
          have hshape : (if status ≠ .active then
              match finish k1 (t1.queue ++ o1).getLast? status with
              | (k, o) => ({ t1 with ctl := k, queue := t1.queue ++ o1 ++ o } : TextInput)
              else { t1 with ctl := k1, queue := t1.queue ++ o1 }) = t2 := ht2
          rw [hshape]
          cases hd2 : drain U (len + 1) (len - (encode out).length) t2 with
          | mk stop2 p2 =>
          obtain ⟨out2, t3⟩ := p2
          obtain ⟨k1', k2', k3', k4', k5', k6', k7'⟩ := drain_inv hU _ _ _ _ _ inv2 (by omega) (by omega) _ _ _ hd2
          have s3 := drain_segs hU _ _ _ _ _ _ inv2 seg2 _ _ _ hd2 k5'
          rw [List.append_assoc] at s3
          have hlen : (encode (out ++ out2)).length ≤ len := by
            rw [encode_append, List.length_append]; omega
          cases stop2 with
          | panic => exact absurd rfl k5'
          | empty =>
            simp only
            refine ⟨[.data sdat status], hcons, ⟨?_, ?_, ?_, ?_⟩, hlen, by simp, ?_, by simp, ?_⟩
            · rw [hab, ← List.append_assoc]
              split <;> exact k1'.congr rfl rfl rfl
            · intro _
              rw [hab]
              split
              · rename_i hs
                simp only [k2']
                exact hc2' hs
              · rename_i hs
                have hs : status = .active := by apply Classical.byContradiction; exact hs
                rw [k2']; exact hc2 hs
            · intro hne
              exfalso
              apply hne
              split <;> simp only [k3', hp2]
            · split <;> exact s3.congr rfl rfl rfl
            · intro _
              refine ⟨status, rfl, ?_⟩
              intro hs
              refine ⟨⟨sdat, rfl⟩, ?_⟩
              rw [if_pos hs]
              have := (k6' rfl).2
              exact ⟨this.quick, this.iter, this.queue⟩
            · intro he _
              simp only [List.cons.injEq, Event.data.injEq, and_true] at he
              exact ⟨_, by rw [he.2]⟩
          | full =>
            simp only
            refine ⟨[.data sdat status], hcons, ⟨?_, ?_, ?_, ?_⟩, hlen, by simp, ?_, by simp, ?_⟩
            · rw [hab, ← List.append_assoc]
              exact k1'.congr rfl rfl rfl
            · intro hs; rw [hab, k2']; exact hc2 hs
            · intro hs; rw [hab]; simp only [k2']; exact hc2' hs
            · exact s3.congr rfl rfl rfl
            · intro _
              exact ⟨.active, rfl, by simp⟩
            · intro he hset
              exfalso
              simp only [List.cons.injEq, Event.data.injEq, and_true] at he
              obtain ⟨rfl, rfl⟩ := he
              have hq := i1.settled hidle hset.2
              rw [processRaw_nil] at hpr
              simp only [Prod.mk.injEq] at hpr
              obtain ⟨rfl, rfl⟩ := hpr
              rw [hq, List.append_nil, List.getLast?_nil, finish_settled (by rw [hk1]; exact hset.1) (by simp)] at ht2
              have hi2 : Idle t2 := by
                rw [← ht2]
                exact ⟨hidle.quick, hidle.iter, by simp⟩
              rw [drain, queueNext_none hi2] at hd2
              simp at hd2

end Verif
