import Verif.ExactDefault
import Verif.Props.Sharp

/-!
# The default exact reads (C96)
-/

namespace Verif
open Ucd Spec

theorem Reached.read {t : TextInput} {src : List Event} (h : Reached t src) (len : Nat) :
    Reached (readWithStatus ucd15 len t src).input (readWithStatus ucd15 len t src).src := by
  obtain ⟨nel, lsps, s, lens, h⟩ := h
  refine ⟨nel, lsps, s, lens ++ [len], ?_⟩
  rw [readMany_append, finalState_append, ← h]
  rfl

theorem Reached.rel {t : TextInput} {src : List Event} (h : Reached t src) :
    ∃ k0 emitted es, CtlInv ucd15 k0 [] ∧ Rel ucd15 k0 t emitted es := by
  obtain ⟨nel, lsps, s, lens, h⟩ := h
  obtain ⟨es', -, h2, -, -⟩ := run_rel textLaws15 lens (.new nel lsps) s [] [] (Rel.init nel lsps)
  rw [← h] at h2
  exact ⟨_, _, _, ctl_new (U := ucd15) nel lsps, h2⟩

theorem Reached.cases {t : TextInput} {src : List Event} (h : Reached t src) (len : Nat) :
    (readWithStatus ucd15 len t src).ret = .invalidInput ∧ (readWithStatus ucd15 len t src).out = [] ∨
    (readWithStatus ucd15 len t src).ret = .sourceError ∨
    ∃ st, (readWithStatus ucd15 len t src).ret = .ok (encode (readWithStatus ucd15 len t src).out).length st := by
  obtain ⟨nel, lsps, s, lens, h⟩ := h
  obtain ⟨h1, h2, h3, h4⟩ := c19_read_total nel lsps s lens t src h len
  by_cases hl : len < normalizationBufferSize
  · left; rw [h2 hl]; exact ⟨rfl, rfl⟩
  · exact Or.inr (h4 (by omega))

/-- The byte position `n` is at a character boundary of `s`. -/
def Spec.AtBoundary (s : List Char) (n : Nat) : Prop := ∃ p q, s = p ++ q ∧ (encode p).length = n

theorem bufferAfter_ok {old : Bytes} {r : ReadResult} (h : r.ret.isOk = true) :
    bufferAfter old r = encode r.out ++ clearToBoundary (old.drop (encode r.out).length) := by
  unfold bufferAfter
  cases hr : r.ret with
  | ok n st => rfl
  | _ => rw [hr] at h; simp [Ret.isOk] at h

/-- Splitting the buffer after a successful read: the old content from there on, or a panic if the read ended inside
one of its scalars. -/
theorem split_read {t : TextInput} {src : List Event} (ht : Reached t src) {buf : List Char} (hb : isBasicTextSubstr ucd15 buf = true)
    {n : Nat} {st : Status} (hok : (readWithStatus ucd15 (encode buf).length t src).ret = .ok n st) :
    n = (encode (readWithStatus ucd15 (encode buf).length t src).out).length ∧
    ((∃ p q, buf = p ++ q ∧ (encode p).length = n ∧
      splitAtMut ucd15 (bufferAfter (encode buf) (readWithStatus ucd15 (encode buf).length t src)) n = some q) ∨
    (¬ AtBoundary buf n ∧ splitAtMut ucd15 (bufferAfter (encode buf) (readWithStatus ucd15 (encode buf).length t src)) n = none)) := by
  have hn := (read_fills hok).1
  refine ⟨hn, ?_⟩
  have hfit := ht.fits (encode buf).length
  have hv := c21_written_valid_partial t src ht (encode buf).length
  rw [bufferAfter_ok (by rw [hok]; rfl)]
  generalize readWithStatus ucd15 (encode buf).length t src = r at hok hn hfit hv
  subst hn
  unfold splitAtMut
  rw [List.take_left', List.drop_left', fromUtf8_encode]
  · rcases clearToBoundary_start hfit with ⟨p, q, h1, h2, h3⟩ | ⟨q, h3⟩
    · left
      refine ⟨p, q, h1, h2, ?_⟩
      rw [h3, fromUtf8_encode]
      have hq : isBasicTextSubstr ucd15 q = true := by
        rw [h1] at hb
        exact substr_suffix textLaws15 hb
      simp [hv, hq]
    · right
      have hz : isBasicTextSubstr ucd15 ('\x00' :: q) = false := by
        cases hc : isBasicTextSubstr ucd15 ('\x00' :: q) with
        | false => rfl
        | true =>
          have := substr_prefix textLaws15 (a := ['\x00']) (b := q) hc
          exact absurd this (by decide +kernel)
      refine ⟨?_, by rw [h3, fromUtf8_encode]; simp [hz]⟩
      rintro ⟨p, q', h4, h5⟩
      rw [(drop_encode_iff hfit q').2 ⟨p, h4, h5⟩] at h3
      have hq' : isBasicTextSubstr ucd15 q' = true := by
        rw [h4] at hb
        exact substr_suffix textLaws15 hb
      cases q' with
      | nil => simp [encode, clearToBoundary, encodeChar] at h3
      | cons c q' =>
        obtain ⟨b, x, hb', hb'', -⟩ := encodeChar_head c
        rw [encode_cons, hb', List.cons_append, clearToBoundary, if_pos hb'', ← List.cons_append, ← hb', ← encode_cons] at h3
        rw [encode_injective h3, hz] at hq'
        simp at hq'
  · rfl
  · rfl

/-- What holds of every result of the two loops: the text is that of a run of reads, and the call panics exactly if
that text ends inside a scalar of the old content (a call that fails with the source may end there, too). -/
structure Filled (buf : List Char) (t : TextInput) (src : List Event) (x : FillResult) : Prop where
  run : ∃ lens, x.out = written (readMany ucd15 lens t src) ∧ (x.input, x.src) = finalState t src (readMany ucd15 lens t src)
  fits : (encode x.out).length ≤ (encode buf).length
  full : (∃ st, x.ret = .ok st) → (encode x.out).length = (encode buf).length
  panic : x.ret = .panic → ¬ AtBoundary buf (encode x.out).length
  boundary : x.ret ≠ .panic → x.ret ≠ .sourceError → AtBoundary buf (encode x.out).length

theorem filled_stop {buf : List Char} {t : TextInput} {src : List Event} (ht : Reached t src) {ret : FillRet}
    (h1 : ∀ st, ret ≠ .ok st)
    (h2 : ret = .panic → ¬ AtBoundary buf (encode (readWithStatus ucd15 (encode buf).length t src).out).length)
    (h3 : ret ≠ .panic → ret ≠ .sourceError → AtBoundary buf (encode (readWithStatus ucd15 (encode buf).length t src).out).length) :
    Filled buf t src { ret := ret, out := (readWithStatus ucd15 (encode buf).length t src).out,
                       input := (readWithStatus ucd15 (encode buf).length t src).input
                       src := (readWithStatus ucd15 (encode buf).length t src).src } where
  run := ⟨[(encode buf).length], by simp [written, readMany], by simp [readMany, finalState]⟩
  fits := ht.fits _
  full := by rintro ⟨st, h⟩; exact absurd h (h1 st)
  panic := h2
  boundary := h3

theorem filled_cons {p q : List Char} {t : TextInput} {src : List Event}
    (hp : (encode p).length = (encode (readWithStatus ucd15 (encode (p ++ q)).length t src).out).length) {x : FillResult}
    (h : Filled q (readWithStatus ucd15 (encode (p ++ q)).length t src).input (readWithStatus ucd15 (encode (p ++ q)).length t src).src x) :
    Filled (p ++ q) t src { x with out := (readWithStatus ucd15 (encode (p ++ q)).length t src).out ++ x.out } := by
  obtain ⟨⟨lens, r1, r2⟩, hf, hfull, hpan, hbd⟩ := h
  have hlen : (encode (p ++ q)).length = (encode p).length + (encode q).length := by rw [encode_append]; simp
  have hiff : ∀ m, AtBoundary (p ++ q) ((encode p).length + m) ↔ AtBoundary q m := by
    intro m
    constructor
    · rintro ⟨a, b, h1, h2⟩
      have hle : (encode p).length + m ≤ (encode (p ++ q)).length := by rw [← h2, h1, encode_append]; simp
      have h3 := (drop_encode_iff hle b).2 ⟨a, h1, h2⟩
      rw [encode_append, List.drop_append, List.drop_eq_nil_of_le (by omega), List.nil_append,
        show (encode p).length + m - (encode p).length = m by omega] at h3
      obtain ⟨c, h4, h5⟩ := (drop_encode_iff (by omega) b).1 h3
      exact ⟨c, b, h4, h5⟩
    · rintro ⟨a, b, rfl, h2⟩
      exact ⟨p ++ a, b, by simp, by rw [encode_append]; simp [h2]⟩
  have hout : (encode ((readWithStatus ucd15 (encode (p ++ q)).length t src).out ++ x.out)).length =
      (encode p).length + (encode x.out).length := by rw [encode_append, List.length_append, hp]
  refine ⟨⟨(encode (p ++ q)).length :: lens, ?_, ?_⟩, ?_, ?_, ?_, ?_⟩
  · show _ ++ x.out = _
    rw [r1]
    simp [readMany, written]
  · rw [readMany, finalState_cons]; exact r2
  · show (encode (_ ++ x.out)).length ≤ _
    rw [hout]; omega
  · intro h
    show (encode (_ ++ x.out)).length = _
    have := hfull h
    rw [hout]; omega
  · intro h
    show ¬ AtBoundary _ (encode (_ ++ x.out)).length
    rw [hout, hiff]; exact hpan h
  · intro h h'
    show AtBoundary _ (encode (_ ++ x.out)).length
    rw [hout, hiff]; exact hbd h h'

theorem filled_nil {t : TextInput} {src : List Event} : Filled [] t src { ret := .ok .active, out := [], input := t, src } where
  run := ⟨[], rfl, rfl⟩
  fits := Nat.le_refl _
  full := fun _ => rfl
  panic := by simp
  boundary := fun _ _ => ⟨[], [], rfl, rfl⟩

theorem fillExact_filled : ∀ (fuel : Nat) (buf : List Char) (t : TextInput) (src : List Event) (x : FillResult), Reached t src →
    isBasicTextSubstr ucd15 buf = true → fillExact ucd15 fuel buf t src = some x → Filled buf t src x := by
  intro fuel
  induction fuel with
  | zero => intro buf t src x _ _ h; simp [fillExact] at h
  | succ fuel ih =>
    intro buf t src x ht hb h
    rw [fillExact] at h
    split at h
    · rename_i he
      subst he
      simp only [Option.some.injEq] at h
      subst h
      exact filled_nil
    · have hzero : (readWithStatus ucd15 (encode buf).length t src).out = [] →
          AtBoundary buf (encode (readWithStatus ucd15 (encode buf).length t src).out).length := by
        intro h; rw [h]; exact ⟨[], buf, rfl, rfl⟩
      rcases ht.cases (encode buf).length with ⟨hr, ho⟩ | hr | ⟨st, hr⟩
      · simp only [hr, stdRet, Option.some.injEq] at h
        subst h
        exact filled_stop ht (by simp) (by simp) (fun _ _ => hzero ho)
      · simp only [hr, stdRet, Option.some.injEq] at h
        subst h
        exact filled_stop ht (by simp) (by simp) (fun _ h => absurd rfl h)
      · obtain ⟨hn, hsplit⟩ := split_read ht hb hr
        simp only [hr, stdRet] at h
        by_cases hz : (encode (readWithStatus ucd15 (encode buf).length t src).out).length = 0
        · have ho : (readWithStatus ucd15 (encode buf).length t src).out = [] := by
            have := length_le_encode (readWithStatus ucd15 (encode buf).length t src).out
            exact List.length_eq_zero_iff.1 (by omega)
          by_cases hst : st = .end_
          · simp only [hz, hst, ne_eq, not_true_eq_false, and_false, if_false, Option.some.injEq] at h
            subst h
            exact filled_stop ht (by simp) (by simp) (fun _ _ => hzero ho)
          · simp only [hz, hst, ne_eq, not_false_eq_true, and_self, if_true, Option.some.injEq] at h
            subst h
            exact filled_stop ht (by simp) (by simp) (fun _ _ => hzero ho)
        · obtain ⟨m, hm⟩ : ∃ m, (encode (readWithStatus ucd15 (encode buf).length t src).out).length = m + 1 :=
            ⟨_, (Nat.succ_pred_eq_of_pos (by omega)).symm⟩
          rw [if_neg (by simp [hz])] at h
          rw [hm] at h hsplit
          rcases hsplit with ⟨p, q, h1, h2, h3⟩ | ⟨h1, h3⟩
          · simp only [h3, Option.map_eq_some_iff] at h
            obtain ⟨y, h4, rfl⟩ := h
            subst h1
            refine filled_cons (by rw [h2, hm]) (ih _ _ _ _ (ht.read _) (substr_suffix textLaws15 hb) h4)
          · simp only [h3, Option.some.injEq] at h
            subst h
            exact filled_stop ht (by simp) (fun _ => by rw [hm]; exact h1) (fun h => absurd rfl h)

theorem fillExactStatus_filled : ∀ (fuel : Nat) (buf : List Char) (t : TextInput) (src : List Event) (x : FillResult), Reached t src →
    isBasicTextSubstr ucd15 buf = true → fillExactStatus ucd15 fuel buf t src = some x → Filled buf t src x := by
  intro fuel
  induction fuel with
  | zero => intro buf t src x _ _ h; simp [fillExactStatus] at h
  | succ fuel ih =>
    intro buf t src x ht hb h
    rw [fillExactStatus] at h
    split at h
    · rename_i he
      subst he
      simp only [Option.some.injEq] at h
      subst h
      exact filled_nil
    · have hzero : (readWithStatus ucd15 (encode buf).length t src).out = [] →
          AtBoundary buf (encode (readWithStatus ucd15 (encode buf).length t src).out).length := by
        intro h; rw [h]; exact ⟨[], buf, rfl, rfl⟩
      rcases ht.cases (encode buf).length with ⟨hr, ho⟩ | hr | ⟨st, hr⟩
      · simp only [hr, Option.some.injEq] at h
        subst h
        exact filled_stop ht (by simp) (by simp) (fun _ _ => hzero ho)
      · simp only [hr, Option.some.injEq] at h
        subst h
        exact filled_stop ht (by simp) (by simp) (fun _ h => absurd rfl h)
      · obtain ⟨hn, hsplit⟩ := split_read ht hb hr
        simp only [hr] at h
        rcases hsplit with ⟨p, q, h1, h2, h3⟩ | ⟨h1, h3⟩
        · simp only [h3] at h
          by_cases hst : st = .end_
          · rw [if_pos hst, Option.some.injEq] at h
            subst h
            subst h1
            by_cases hq : q = []
            · subst hq
              rw [if_pos rfl]
              simp only [List.append_nil] at *
              refine ⟨⟨[(encode p).length], by simp [written, readMany], by simp [readMany, finalState]⟩, ht.fits _, fun _ => h2.symm,
                by simp, fun _ _ => ⟨p, [], by simp, h2⟩⟩
            · rw [if_neg hq]
              exact filled_stop ht (by simp) (by simp) (fun _ _ => ⟨p, q, rfl, h2⟩)
          · rw [if_neg hst] at h
            simp only [Option.map_eq_some_iff] at h
            obtain ⟨y, h4, rfl⟩ := h
            subst h1
            exact filled_cons h2 (ih _ _ _ _ (ht.read _) (substr_suffix textLaws15 hb) h4)
        · simp only [h3, Option.some.injEq] at h
          subst h
          exact filled_stop ht (by simp) (fun _ => h1) (fun h => absurd rfl h)

/-! ## C96 -/

/-- C96: `default_read_exact_text_substr` returns for every source, state and buffer, after at most one read per byte of
the buffer and one more. -/
theorem c96_returns (buf : List Char) (t : TextInput) (src : List Event) (ht : Reached t src) (hb : isBasicTextSubstr ucd15 buf = true) :
    ∃ x, fillExact ucd15 ((encode buf).length + 1) buf t src = some x := by
  have key : ∀ (fuel : Nat) (buf : List Char) (t : TextInput) (src : List Event), Reached t src → isBasicTextSubstr ucd15 buf = true →
      (encode buf).length < fuel → ∃ x, fillExact ucd15 fuel buf t src = some x := by
    intro fuel
    induction fuel with
    | zero => intro buf t src _ _ h; omega
    | succ fuel ih =>
      intro buf t src ht hb hf
      rw [fillExact]
      split
      · exact ⟨_, rfl⟩
      · rcases ht.cases (encode buf).length with ⟨hr, ho⟩ | hr | ⟨st, hr⟩
        · simp [hr, stdRet]
        · simp [hr, stdRet]
        · obtain ⟨hn, hsplit⟩ := split_read ht hb hr
          simp only [hr, stdRet]
          by_cases hz : (encode (readWithStatus ucd15 (encode buf).length t src).out).length = 0
          · by_cases hst : st = .end_
            · simp [hz, hst]
            · simp [hz, hst]
          · obtain ⟨m, hm⟩ : ∃ m, (encode (readWithStatus ucd15 (encode buf).length t src).out).length = m + 1 :=
              ⟨_, (Nat.succ_pred_eq_of_pos (by omega)).symm⟩
            rw [if_neg (by simp [hz])]
            rw [hm] at hsplit ⊢
            rcases hsplit with ⟨p, q, h1, h2, h3⟩ | ⟨h1, h3⟩
            · simp only [h3]
              have hlen : (encode buf).length = (encode p).length + (encode q).length := by rw [h1, encode_append]; simp
              obtain ⟨x, hx⟩ := ih q _ _ (ht.read (encode buf).length) (by rw [h1] at hb; exact substr_suffix textLaws15 hb) (by omega)
              rw [hx]; exact ⟨_, rfl⟩
            · simp [h3]
  exact key _ buf t src ht hb (by omega)

/-- C96: `default_read_exact_text_substr_using_status` returns for every source, state and buffer. -/
theorem c96_status_returns (buf : List Char) (t : TextInput) (src : List Event) (ht : Reached t src)
    (hb : isBasicTextSubstr ucd15 buf = true) : ∃ fuel x, fillExactStatus ucd15 fuel buf t src = some x := by
  induction hN : (encode buf).length using Nat.strongRecOn generalizing buf t src with
  | ind N ih =>
    by_cases he : buf = []
    · exact ⟨1, _, by rw [fillExactStatus, if_pos he]⟩
    · by_cases hl : N < normalizationBufferSize
      · obtain ⟨nel, lsps, s, lens, h⟩ := ht
        have := (c19_read_total nel lsps s lens t src h N).2.1 hl
        exact ⟨1, _, by rw [fillExactStatus, if_neg he, hN, this]⟩
      · obtain ⟨k0, em, es, hk, hrel⟩ := ht.rel
        obtain ⟨n, r, hr, k, hok⟩ := reach textLaws15 hk (fun _ => N) (fun _ => by omega) t src em es 1 0 hrel (by simp)
        have hmap : ∀ n i, (List.range' i n).map (fun _ => N) = List.replicate n N := by
          intro n
          induction n with
          | zero => intro i; rfl
          | succ n ih => intro i; rw [List.range'_succ, List.map_cons, ih]; rfl
        rw [hmap] at hr
        clear hrel hk
        induction n generalizing t src with
        | zero => simp [readMany] at hr
        | succ n ihn =>
          rcases ht.cases N with ⟨h1, -⟩ | h1 | ⟨st, h1⟩
          · exact ⟨1, { ret := .invalidInput, out := _, input := _, src := _ }, by rw [fillExactStatus, if_neg he]; simp only [hN, h1]; rfl⟩
          · exact ⟨1, { ret := .sourceError, out := _, input := _, src := _ }, by rw [fillExactStatus, if_neg he]; simp only [hN, h1]; rfl⟩
          · obtain ⟨-, hsplit⟩ := split_read ht hb (hN ▸ h1)
            rw [hN] at hsplit
            rcases hsplit with ⟨p, q, e1, e2, e3⟩ | ⟨e1, e3⟩
            · have hlen : N = (encode p).length + (encode q).length := by rw [← hN, e1, encode_append]; simp
              have hq : isBasicTextSubstr ucd15 q = true := by rw [e1] at hb; exact substr_suffix textLaws15 hb
              by_cases hst : st = .end_
              · exact ⟨1, _, by
                  rw [fillExactStatus, if_neg he]
                  simp only [hN, h1, e3]
                  rw [if_pos hst]⟩
              · have hrec : ∃ fuel x, fillExactStatus ucd15 fuel q (readWithStatus ucd15 N t src).input (readWithStatus ucd15 N t src).src = some x := by
                  by_cases hp : (encode p).length = 0
                  · have hp' : p = [] := by
                      have := length_le_encode p
                      exact List.length_eq_zero_iff.1 (by omega)
                    subst hp'
                    simp only [List.nil_append] at e1
                    rw [← e1]
                    refine ihn _ _ (ht.read N) ?_
                    rw [List.replicate_succ, readMany] at hr
                    cases n with
                    | zero =>
                      simp only [List.replicate_zero, readMany, List.getLast?_singleton, Option.some.injEq] at hr
                      rw [← hr, h1] at hok
                      injection hok with _ hok
                      exact absurd hok hst
                    | succ n =>
                      rw [List.replicate_succ, readMany, List.getLast?_cons_cons] at hr
                      rw [List.replicate_succ, readMany]
                      exact hr
                  · exact ih (encode q).length (by omega) q _ _ (ht.read N) hq rfl
                obtain ⟨fuel, x, hx⟩ := hrec
                exact ⟨fuel + 1, _, by
                  rw [fillExactStatus, if_neg he]
                  simp only [hN, h1, e3]
                  rw [if_neg hst, hx]; rfl⟩
            · exact ⟨1, { ret := .panic, out := _, input := _, src := _ }, by
                rw [fillExactStatus, if_neg he]
                simp only [hN, h1, e3]; rfl⟩

/-- C96: when either loop returns `Ok`, the buffer is filled completely with the next text of the stream: what a run of
reads delivers, a valid substring. -/
theorem c96_ok_fills (fuel : Nat) (buf : List Char) (t : TextInput) (src : List Event) (ht : Reached t src)
    (hb : isBasicTextSubstr ucd15 buf = true) (x : FillResult)
    (hx : fillExact ucd15 fuel buf t src = some x ∨ fillExactStatus ucd15 fuel buf t src = some x) (hok : ∃ st, x.ret = .ok st) :
    (encode x.out).length = (encode buf).length ∧ isBasicTextSubstr ucd15 x.out = true ∧
    ∃ lens, x.out = written (readMany ucd15 lens t src) ∧ (x.input, x.src) = finalState t src (readMany ucd15 lens t src) := by
  have h : Filled buf t src x := by
    rcases hx with hx | hx
    · exact fillExact_filled fuel buf t src x ht hb hx
    · exact fillExactStatus_filled fuel buf t src x ht hb hx
  refine ⟨h.full hok, ?_, h.run⟩
  obtain ⟨lens, h1, -⟩ := h.run
  obtain ⟨nel, lsps, s, lens0, h0⟩ := ht
  have h2 := (run_valid textLaws15 nel lsps s (lens0 ++ lens)).1
  rw [readMany_append, ← h0] at h2
  simp only [written, List.flatMap_append] at h2
  rw [h1]
  exact substr_suffix textLaws15 h2

/-- C96, panics exactly: a loop that does not fail with its source panics if and only if the text written ends inside a
scalar of the old content of the buffer. -/
theorem c96_panic_iff (fuel : Nat) (buf : List Char) (t : TextInput) (src : List Event) (ht : Reached t src)
    (hb : isBasicTextSubstr ucd15 buf = true) (x : FillResult)
    (hx : fillExact ucd15 fuel buf t src = some x ∨ fillExactStatus ucd15 fuel buf t src = some x) (hs : x.ret ≠ .sourceError) :
    x.ret = .panic ↔ ¬ AtBoundary buf (encode x.out).length := by
  have h : Filled buf t src x := by
    rcases hx with hx | hx
    · exact fillExact_filled fuel buf t src x ht hb hx
    · exact fillExactStatus_filled fuel buf t src x ht hb hx
  constructor
  · exact h.panic
  · intro h'
    apply Classical.byContradiction
    intro hp
    exact h' (h.boundary hp hs)

/-- C96: with an ASCII buffer, such as one of spaces, neither loop panics. -/
theorem c96_ascii_no_panic_partial (fuel : Nat) (buf : List Char) (t : TextInput) (src : List Event) (ht : Reached t src)
    (hb : isBasicTextSubstr ucd15 buf = true) (ha : ∀ c ∈ buf, c.toNat < 0x80) (x : FillResult)
    (hx : fillExact ucd15 fuel buf t src = some x ∨ fillExactStatus ucd15 fuel buf t src = some x) : x.ret ≠ .panic := by
  have h : Filled buf t src x := by
    rcases hx with hx | hx
    · exact fillExact_filled fuel buf t src x ht hb hx
    · exact fillExactStatus_filled fuel buf t src x ht hb hx
  have hlen : ∀ l : List Char, (∀ c ∈ l, c.toNat < 0x80) → (encode l).length = l.length := by
    intro l
    induction l with
    | nil => intro _; rfl
    | cons c l ih =>
      intro h
      rw [encode_cons, List.length_append, encodeChar_length, ih fun d hd => h d (by simp [hd])]
      have : utf8Len c = 1 := by
        have := h c (by simp)
        simp only [utf8Len]
        rw [if_pos (by omega)]
      simp [this]; omega
  intro hp
  refine h.panic hp ⟨buf.take (encode x.out).length, buf.drop (encode x.out).length, by simp, ?_⟩
  rw [hlen _ fun c hc => ha c (List.mem_of_mem_take hc), List.length_take]
  have := h.fits
  rw [hlen buf ha] at this
  omega

/-- C96 fails: with other buffers the calls panic, because what is left of a scalar that was partly overwritten is filled
with U+0, and the rest of the buffer must be valid to be split off. -/
theorem c96_refuted_panic : isBasicTextSubstr ucd15 (List.replicate 100 'é') = true ∧
    ((fillExact ucd15 201 (List.replicate 100 'é') (.new false false) [.data ['a', 'b', '\n'] .active]).map (·.ret)) = some .panic ∧
    ((fillExactStatus ucd15 201 (List.replicate 100 'é') (.new false false) [.data ['a', 'b', '\n'] .active]).map (·.ret)) = some .panic := by
  decide +kernel

/-- C96 fails: a read of the source that returns no text makes `default_read_exact_text_substr` fail with `Interrupted`
though the text that fills the buffer comes next; the `using_status` loop and `read_exact` go on. -/
theorem c96_refuted_interrupted :
    ((fillExact ucd15 137 (List.replicate 136 ' ') (.new false false) [.data [] .active, .data (List.replicate 34 '𐀀' ++ ['\n']) .active]).map
      (·.ret)) = some .interrupted ∧
    ((fillExactStatus ucd15 137 (List.replicate 136 ' ') (.new false false) [.data [] .active, .data (List.replicate 34 '𐀀' ++ ['\n']) .active]).map
      (·.ret)) = some (.ok .active) ∧
    ((readExact ucd15 137 136 (.new false false) [.data [] .active, .data (List.replicate 34 '𐀀' ++ ['\n']) .active]).map (·.ret)) = some .ok := by
  decide +kernel

example : Reached (.new false false) [.data ['a', 'b', '\n'] .active] := ⟨false, false, _, [], rfl⟩

/-- C96: when `default_read_exact_text_substr` succeeds, `read_exact_text_substr` of the reader itself would have read
the same text and left the reader in the same state. -/
theorem c96_agrees (fuel : Nat) : ∀ (buf : List Char) (t : TextInput) (src : List Event) (x : FillResult) (st : Status), Reached t src →
    isBasicTextSubstr ucd15 buf = true → fillExact ucd15 fuel buf t src = some x → x.ret = .ok st →
    readExact ucd15 fuel (encode buf).length t src = some { ret := .ok, out := x.out, input := x.input, src := x.src } := by
  induction fuel with
  | zero => intro buf t src x st _ _ h; simp [fillExact] at h
  | succ fuel ih =>
    intro buf t src x st ht hb h hok
    rw [fillExact] at h
    rw [readExact]
    split at h
    · rename_i he
      subst he
      simp only [Option.some.injEq] at h
      subst h
      rw [if_pos (show (encode []).length = 0 from rfl)]
    · rename_i he
      have hlen : (encode buf).length ≠ 0 := by
        have := length_le_encode buf
        have := List.length_pos_iff.2 he
        omega
      rw [if_neg hlen]
      rcases ht.cases (encode buf).length with ⟨hr, ho⟩ | hr | ⟨st', hr⟩
      · simp only [hr, stdRet, Option.some.injEq] at h
        subst h
        simp at hok
      · simp only [hr, stdRet, Option.some.injEq] at h
        subst h
        simp at hok
      · obtain ⟨hn, hsplit⟩ := split_read ht hb hr
        simp only [hr, stdRet] at h ⊢
        by_cases hz : (encode (readWithStatus ucd15 (encode buf).length t src).out).length = 0
        · exfalso
          by_cases hst : st' = .end_
          · simp only [hz, hst, ne_eq, not_true_eq_false, and_false, if_false, Option.some.injEq] at h
            subst h
            simp at hok
          · simp only [hz, hst, ne_eq, not_false_eq_true, and_self, if_true, Option.some.injEq] at h
            subst h
            simp at hok
        · obtain ⟨m, hm⟩ : ∃ m, (encode (readWithStatus ucd15 (encode buf).length t src).out).length = m + 1 :=
            ⟨_, (Nat.succ_pred_eq_of_pos (by omega)).symm⟩
          rw [if_neg (by simp [hz])] at h ⊢
          rw [hm] at h hsplit ⊢
          rcases hsplit with ⟨p, q, h1, h2, h3⟩ | ⟨h1, h3⟩
          · simp only [h3, Option.map_eq_some_iff] at h
            obtain ⟨y, h4, rfl⟩ := h
            have hl : (encode buf).length - (m + 1) = (encode q).length := by
              rw [h1, encode_append, List.length_append, h2]; omega
            have := ih q _ _ y st (ht.read _) (by rw [h1] at hb; exact substr_suffix textLaws15 hb) h4 hok
            simp only
            rw [hl, this]
            rfl
          · simp only [h3, Option.some.injEq] at h
            subst h
            simp at hok

example : ((fillExact ucd15 3 (List.replicate 136 ' ') (.new false false) [.data (List.replicate 34 '𐀀' ++ ['\n']) .active]).map
      (·.ret)) = some (.ok .active) ∧ isBasicTextSubstr ucd15 (List.replicate 136 ' ') = true := by
  decide +kernel

end Verif
