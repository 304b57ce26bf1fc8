import Verif.Props.Join
import Verif.Props.Reader
import Verif.Props.Writer
import Verif.ReaderExact

/-!
# Exact forms (C12, C20, C21, C27, C28, C31)

Where a property does not hold, these theorems say exactly when it does.
-/

namespace Verif
open Ucd Spec

/-! ## C12 -/

theorem pushText_prefix (a s : List Char) : ∃ r, pushText a s = a ++ r := by
  rcases pushText_cases a s with ⟨a', r, rfl, -, h⟩ | ⟨-, h⟩
  · exact ⟨r, by rw [h]; simp⟩
  · exact ⟨s, h⟩

theorem extendText_prefix (l : List (List Char)) : ∀ a : List Char, ∃ r, extendText a l = a ++ r := by
  induction l with
  | nil => intro a; exact ⟨[], by simp [extendText]⟩
  | cons s l ih =>
    intro a
    obtain ⟨r, hr⟩ := pushText_prefix a s
    obtain ⟨r', hr'⟩ := ih (pushText a s)
    exact ⟨r ++ r', by rw [← List.append_assoc, ← hr]; exact hr'⟩

/-- C12, `extend`, exactly: appending texts one after the other gives Basic Text unless at some place the end of what
has been built so far and the start of the next text make a Hangul syllable. -/
theorem c12_extend_iff (a : List Char) (l : List (List Char)) (ha : isBasicText ucd15 a = true)
    (hl : ∀ s ∈ l, isBasicText ucd15 s = true) :
    isBasicText ucd15 (extendText a l) = true ↔
      ∀ l1 s l2, l = l1 ++ s :: l2 → ∀ x ∈ (extendText a l1).getLast?, ∀ c ∈ s.head?, ¬ HangulJoin x c := by
  induction l generalizing a with
  | nil => simp [extendText, ha]
  | cons s l ih =>
    have hs := hl s (by simp)
    have hl' : ∀ x ∈ l, isBasicText ucd15 x = true := fun x hx => hl x (by simp [hx])
    have step : extendText a (s :: l) = extendText (pushText a s) l := rfl
    constructor
    · intro h
      have hp : isBasicText ucd15 (pushText a s) = true := by
        obtain ⟨r, hr⟩ := extendText_prefix l (pushText a s)
        rw [step, hr] at h
        obtain ⟨h1, -, h3⟩ := text_iff.1 h
        refine text_iff.2 ⟨?_, ?_, substr_prefix textLaws15 h3⟩
        · intro c hc
          exact h1 c (by rw [List.head?_append, hc]; rfl)
        · intro c hc
          rcases pushText_cases a s with ⟨a', r, rfl, rfl, e⟩ | ⟨-, e⟩
          · rw [e, List.getLast?_append] at hc
            have := (text_iff.1 hs).2.1 c
            simp only [List.getLast?_cons, Option.some_or] at hc this
            exact this hc
          · rw [e] at hc
            rcases mem_getLast?_append hc with hc | hc
            · exact (text_iff.1 ha).2.1 c hc
            · exact (text_iff.1 hs).2.1 c hc
      intro l1 s' l2 e
      cases l1 with
      | nil =>
        simp only [List.nil_append, List.cons.injEq] at e
        obtain ⟨rfl, rfl⟩ := e
        exact (c12_push_iff a s ha hs).1 hp
      | cons y l1 =>
        simp only [List.cons_append, List.cons.injEq] at e
        obtain ⟨rfl, rfl⟩ := e
        exact (ih (pushText a s) hp hl').1 (step ▸ h) l1 s' l2 rfl
    · intro h
      have hp := (c12_push_iff a s ha hs).2 (h [] s l rfl)
      rw [step]
      exact (ih _ hp hl').2 fun l1 s' l2 e => h (s :: l1) s' l2 (by rw [e]; rfl)

example : isBasicText ucd15 (extendText ['a'] [['ᄀ'], [], ['ᅡ']]) = false ∧
    isBasicText ucd15 (extendText ['a'] [['ᄀ'], ['\n'], ['ᅡ']]) = true := by decide +kernel

/-! ## C20, C21 -/

theorem drop_encode_iff {old : List Char} {n : Nat} (hn : n ≤ (encode old).length) (new : List Char) :
    (encode old).drop n = encode new ↔ ∃ p, old = p ++ new ∧ (encode p).length = n := by
  constructor
  · intro h
    cases new with
    | nil =>
      refine ⟨old, by simp, ?_⟩
      have := congrArg List.length h
      simp [encode_nil] at this
      omega
    | cons c r =>
      obtain ⟨b, t, hb, hb', -⟩ := encodeChar_head c
      rw [encode_cons, hb] at h
      obtain ⟨x, y, h1, h2, h3⟩ := drop_boundary old n b _ h hb'
      refine ⟨x, ?_, h2⟩
      rw [h1]
      congr 1
      apply encode_injective
      rw [h3, encode_cons, hb]; rfl
  · rintro ⟨p, rfl, rfl⟩
    rw [encode_append, List.drop_left']
    rfl

theorem append_encode_iff (out : List Char) (r : Bytes) (new : List Char) :
    encode out ++ r = encode new ↔ ∃ t, new = out ++ t ∧ r = encode t := by
  constructor
  · intro h
    obtain ⟨t, ht⟩ := decodePrefix_maximal out r
    rw [h] at ht
    have h2 := decodePrefix_encode new [] (by rfl)
    rw [List.append_nil] at h2
    rw [h2] at ht
    refine ⟨t, ht, ?_⟩
    simp only at ht
    rw [ht, encode_append] at h
    exact List.append_cancel_left h
  · rintro ⟨t, rfl, rfl⟩
    rw [encode_append]

/-- The reader states that can come about. -/
def Reached (t : TextInput) (rest : List Event) : Prop :=
  ∃ nel lsps src lens, (t, rest) = finalState (.new nel lsps) src (readMany ucd15 lens (.new nel lsps) src)

theorem Reached.fits {t : TextInput} {rest : List Event} (h : Reached t rest) (len : Nat) :
    (encode (readWithStatus ucd15 len t rest).out).length ≤ len := by
  obtain ⟨nel, lsps, src, lens, h⟩ := h
  exact (c19_read_total nel lsps src lens t rest h len).2.2.1

/-- C20, exactly: after any call the `str` is valid UTF-8 if the call succeeded, or the place up to which it has written
is at a character boundary of the old content; and otherwise it is not. -/
theorem c20_utf8_iff (old : List Char) (t : TextInput) (rest : List Event) (ht : Reached t rest) :
    (∃ new, fromUtf8 (bufferAfter (encode old) (readWithStatus ucd15 (encode old).length t rest)) = some new) ↔
      (readWithStatus ucd15 (encode old).length t rest).ret.isOk = true ∨
      ∃ p q, old = p ++ q ∧ (encode p).length = (encode (readWithStatus ucd15 (encode old).length t rest).out).length := by
  have hfit := ht.fits (encode old).length
  have hok := c20_read_str_utf8_partial old t rest
  generalize readWithStatus ucd15 (encode old).length t rest = r at hfit hok
  simp only [fromUtf8_iff]
  by_cases h : r.ret.isOk = true
  · simp only [h, true_or, iff_true]
    exact hok h
  · have hb : bufferAfter (encode old) r = encode r.out ++ (encode old).drop (encode r.out).length := by
      unfold bufferAfter
      cases hr : r.ret with
      | ok n st => rw [hr] at h; simp [Ret.isOk] at h
      | _ => rfl
    simp only [hb, h, append_encode_iff]
    constructor
    · rintro ⟨new, q, rfl, hq⟩
      obtain ⟨p, h1, h2⟩ := (drop_encode_iff hfit q).1 hq
      exact Or.inr ⟨p, q, h1, h2⟩
    · rintro (h' | ⟨p, q, h1, h2⟩)
      · simp at h'
      · exact ⟨_, q, rfl, (drop_encode_iff hfit q).2 ⟨p, h1, h2⟩⟩

example : Reached stuck.input stuck.src := ⟨false, false, _, [136], rfl⟩

/-- C21 (what holds), for every state of the reader: what a call has written, whether it succeeds or fails, is a valid
substring. -/
theorem c21_written_valid_partial (t : TextInput) (rest : List Event) (ht : Reached t rest) (len : Nat) :
    isBasicTextSubstr ucd15 (readWithStatus ucd15 len t rest).out = true := by
  obtain ⟨nel, lsps, src, lens, h⟩ := ht
  have h1 := (run_valid textLaws15 nel lsps src (lens ++ [len])).1
  rw [readMany_append, ← h] at h1
  simp only [written, List.flatMap_append, readMany, List.flatMap_cons, List.flatMap_nil, List.append_nil] at h1
  exact substr_suffix textLaws15 h1

theorem clearToBoundary_start {n : Nat} {old : List Char} (hn : n ≤ (encode old).length) :
    (∃ p q, old = p ++ q ∧ (encode p).length = n ∧ clearToBoundary ((encode old).drop n) = encode q) ∨
    ∃ q, clearToBoundary ((encode old).drop n) = encode ('\x00' :: q) := by
  cases hd : (encode old).drop n with
  | nil =>
    left
    refine ⟨old, [], by simp, ?_, rfl⟩
    have := congrArg List.length hd
    simp at this
    omega
  | cons b r =>
    by_cases hb : isBoundaryByte b = true
    · left
      obtain ⟨x, y, h1, h2, h3⟩ := drop_boundary old n b r hd hb
      exact ⟨x, y, h1, h2, by rw [clearToBoundary, if_pos hb, h3]⟩
    · right
      have hr : r = (encode old).drop (n + 1) := by
        rw [← List.drop_drop, hd]; rfl
      obtain ⟨q, hq⟩ := clearToBoundary_valid _ old (n + 1) (Nat.le_refl _)
      exact ⟨q, by rw [clearToBoundary, if_neg hb, hr, hq]; rfl⟩

/-- C21, exactly: after a successful read the whole buffer is a valid substring if and only if the text written ends at a
character boundary of the old content and is, together with the old content after that place, a valid substring. -/
theorem c21_buffer_iff (old : List Char) (t : TextInput) (rest : List Event) (ht : Reached t rest)
    (hok : (readWithStatus ucd15 (encode old).length t rest).ret.isOk = true) :
    (∃ new, fromUtf8 (bufferAfter (encode old) (readWithStatus ucd15 (encode old).length t rest)) = some new ∧
      isBasicTextSubstr ucd15 new = true) ↔
      ∃ p q, old = p ++ q ∧ (encode p).length = (encode (readWithStatus ucd15 (encode old).length t rest).out).length ∧
        isBasicTextSubstr ucd15 ((readWithStatus ucd15 (encode old).length t rest).out ++ q) = true := by
  have hfit := ht.fits (encode old).length
  generalize readWithStatus ucd15 (encode old).length t rest = r at hfit hok
  have hb : bufferAfter (encode old) r = encode r.out ++ clearToBoundary ((encode old).drop (encode r.out).length) := by
    unfold bufferAfter
    cases hr : r.ret with
    | ok n st => rfl
    | _ => rw [hr] at hok; simp [Ret.isOk] at hok
  simp only [hb, fromUtf8_iff]
  rcases clearToBoundary_start hfit with ⟨p, q, h1, h2, h3⟩ | ⟨q, h3⟩
  · rw [h3, ← encode_append]
    constructor
    · rintro ⟨new, h4, h5⟩
      rw [← encode_injective h4] at h5
      exact ⟨p, q, h1, h2, h5⟩
    · rintro ⟨p', q', h4, h5, h6⟩
      refine ⟨_, rfl, ?_⟩
      have := (drop_encode_iff hfit q).2 ⟨p, h1, h2⟩
      have h7 := (drop_encode_iff hfit q').2 ⟨p', h4, h5⟩
      rw [this] at h7
      rw [encode_injective h7]
      exact h6
  · rw [h3, ← encode_append]
    constructor
    · rintro ⟨new, h4, h5⟩
      rw [← encode_injective h4] at h5
      have h6 := substr_infix textLaws15 (p := r.out) (m := ['\x00']) (q := q) (by simpa using h5)
      exact absurd h6 (by decide +kernel)
    · rintro ⟨p', q', h4, h5, h6⟩
      have h7 := (drop_encode_iff hfit q').2 ⟨p', h4, h5⟩
      rw [h7] at h3
      cases q' with
      | nil => simp [encode, clearToBoundary, encodeChar] at h3
      | cons c q' =>
        obtain ⟨b, x, hb', hb'', -⟩ := encodeChar_head c
        rw [encode_cons, hb', List.cons_append, clearToBoundary, if_pos hb'', ← List.cons_append, ← hb', ← encode_cons] at h3
        have := encode_injective h3
        simp only [List.cons.injEq] at this
        rw [this.1] at h6
        have h8 := substr_infix textLaws15 (p := r.out) (m := ['\x00']) (q := q') (by simpa using h6)
        exact absurd h8 (by decide +kernel)

/-! ## C27 -/

theorem absorbAll_filter (U : Ucd) (es : List Event) : ∀ kt : Ctl × List Char,
    absorbAll U kt (es.filter (· ≠ .err)) = absorbAll U kt es := by
  induction es with
  | nil => intro kt; rfl
  | cons e es ih =>
    intro kt
    cases e with
    | data s st => simpa [absorbAll] using ih _
    | err => simpa [absorbAll] using ih _

theorem segAll_filter (U : Ucd) (es : List Event) : ∀ (kt : Ctl × List Char) (S : List (List Char) × List Char),
    segAll U kt S (es.filter (· ≠ .err)) = segAll U kt S es := by
  induction es with
  | nil => intro kt S; rfl
  | cons e es ih =>
    intro kt S
    cases e with
    | data s st => simpa [segAll] using ih _ _
    | err => simpa [segAll] using ih _ _

theorem Hist.filter {src es src' : List Event} (h : Hist src es src') :
    Hist (src.filter (· ≠ .err)) (es.filter (· ≠ .err)) (src'.filter (· ≠ .err)) := by
  obtain ⟨m, h1, h2⟩ := h
  refine ⟨m, ?_, fun hm => by rw [h2 hm]; rfl⟩
  rw [← List.filter_append, h1, List.filter_append]
  congr 1
  apply List.filter_eq_self.2
  intro e he
  rw [List.eq_of_mem_replicate he]
  rfl

/-- What the calls of a complete run have written, failed calls included, depends only on the inner reads that
succeeded. -/
theorem run_exact_err {U : Ucd} (hU : TextLaws U) {src : List Event} (hsrc : Ending (src.filter (· ≠ .err))) {nel lsps : Bool}
    {lens : List Nat} {r : ReadResult} (hr : (readMany U lens (.new nel lsps) src).getLast? = some r) {n : Nat}
    (hok : r.ret = .ok n .end_) :
    written (readMany U lens (.new nel lsps) src) = (segments U nel lsps (src.filter (· ≠ .err))).flatMap (normChain U) := by
  obtain ⟨es, s, h1, h2, h3⟩ := run_last hU (Rel.init nel lsps) hr hok (by simp)
  have h1' := h1.filter
  rw [List.filter_append] at h1'
  obtain ⟨c, hc1, hc2⟩ := hsrc.hist (s := s) h1'
  simp only [List.nil_append] at h2
  have hset := absorbAll_ending hU hsrc (kt := ((TextInput.new nel lsps).ctl, [])) (ctl_new (U := U) nel lsps)
  have hS : segAll U ((TextInput.new nel lsps).ctl, []) ([], []) (es ++ [.data s .end_]) =
      segAll U ((TextInput.new nel lsps).ctl, []) ([], []) (src.filter (· ≠ .err)) := by
    rw [← segAll_filter, List.filter_append]
    show segAll U _ _ (es.filter (· ≠ .err) ++ [.data s .end_]) = _
    rw [hc1, segAll_append, segAll_eofs hc2 _ _ hset (segAll_idle _ _ _ (by simp))]
  have hsegs := h2.segs
  rw [hS] at hsegs
  exact (hsegs.idle h3).1

/-- C27, what is lost exactly: over a complete run during which the source fails any number of times, the buffers of all
calls together hold the text that is delivered when the source does not fail.  So the text written to the buffers of
the failed calls, which report no count, is what is lost, and nothing else is. -/
theorem c27_conserved_partial (nel lsps : Bool) (src : List Event) (lens lens' : List Nat) (r r' : ReadResult) (n n' : Nat)
    (hsrc : Ending (src.filter (· ≠ .err)))
    (hr : (readMany ucd15 lens (.new nel lsps) src).getLast? = some r) (hok : r.ret = .ok n .end_)
    (hr' : (readMany ucd15 lens' (.new nel lsps) (src.filter (· ≠ .err))).getLast? = some r') (hok' : r'.ret = .ok n' .end_) :
    written (readMany ucd15 lens (.new nel lsps) src) =
      delivered (readMany ucd15 lens' (.new nel lsps) (src.filter (· ≠ .err))) := by
  rw [run_exact_err textLaws15 hsrc hr hok, (run_exact textLaws15 hsrc hr' hok').1]

/-- C27: nothing at all is lost if and only if no failing call had written anything. -/
theorem c27_lost_iff (nel lsps : Bool) (src : List Event) (lens lens' : List Nat) (r r' : ReadResult) (n n' : Nat)
    (hsrc : Ending (src.filter (· ≠ .err)))
    (hr : (readMany ucd15 lens (.new nel lsps) src).getLast? = some r) (hok : r.ret = .ok n .end_)
    (hr' : (readMany ucd15 lens' (.new nel lsps) (src.filter (· ≠ .err))).getLast? = some r') (hok' : r'.ret = .ok n' .end_) :
    delivered (readMany ucd15 lens (.new nel lsps) src) =
      delivered (readMany ucd15 lens' (.new nel lsps) (src.filter (· ≠ .err))) ↔
    ∀ x ∈ readMany ucd15 lens (.new nel lsps) src, x.ret = .sourceError → x.out = [] := by
  rw [← c27_conserved_partial nel lsps src lens lens' r r' n n' hsrc hr hok hr' hok']
  have hpanic : ∀ x ∈ readMany ucd15 lens (.new nel lsps) src, x.ret ≠ .panic :=
    (run_rel textLaws15 lens (.new nel lsps) src [] [] (Rel.init nel lsps)).choose_spec.2.2.2
  have hinv : ∀ (lens : List Nat) (t : TextInput) (src : List Event), ∀ x ∈ readMany ucd15 lens t src,
      x.ret = .invalidInput → x.out = [] := by
    intro lens
    induction lens with
    | nil => intro t src x hx; simp [readMany] at hx
    | cons len lens ih =>
      intro t src x hx hret
      simp only [readMany, List.mem_cons] at hx
      rcases hx with rfl | hx
      · unfold readWithStatus at hret ⊢
        split at hret
        · rename_i hl
          rw [if_pos hl]
        · exfalso
          revert hret
          repeat' split
          all_goals simp
          all_goals (split <;> simp)
      · exact ih _ _ x hx hret
  have hinv := hinv lens (.new nel lsps) src
  generalize readMany ucd15 lens (.new nel lsps) src = rs at hpanic hinv
  have hlen : ∀ rs : List ReadResult, (delivered rs).length ≤ (written rs).length := by
    intro rs
    induction rs with
    | nil => simp [delivered, written]
    | cons x rs ih =>
      simp only [delivered, written, List.flatMap_cons, List.length_append] at ih ⊢
      split <;> (try simp only [List.length_nil]) <;> omega
  constructor
  · intro h
    clear hinv hpanic
    induction rs with
    | nil => simp
    | cons x rs ih =>
      have := hlen rs
      have hx : x.ret.isOk = true ∨ x.out = [] := by
        apply Classical.byContradiction
        intro hc
        simp only [not_or] at hc
        have h' := congrArg List.length h
        simp only [delivered, written, List.flatMap_cons, List.length_append, hc.1] at h' this
        have := List.length_pos_iff.2 hc.2
        simp only [Bool.false_eq_true, if_false, List.length_nil] at h'
        omega
      have h' : delivered rs = written rs := by
        simp only [delivered, written, List.flatMap_cons] at h ⊢
        rcases hx with hx | hx
        · rw [if_pos hx] at h
          exact List.append_cancel_left h
        · simpa [hx] using h
      intro y hy hret
      simp only [List.mem_cons] at hy
      rcases hy with rfl | hy
      · rcases hx with hx | hx
        · rw [hret] at hx; simp [Ret.isOk] at hx
        · exact hx
      · exact ih h' y hy hret
  · intro h
    have : ∀ x ∈ rs, x.ret.isOk = true ∨ x.out = [] := by
      intro x hx
      cases hret : x.ret with
      | ok n st => left; rfl
      | invalidInput => exact Or.inr (hinv x hx hret)
      | sourceError => exact Or.inr (h x hx hret)
      | panic => exact absurd hret (hpanic x hx)
    clear hpanic hinv h
    induction rs with
    | nil => rfl
    | cons x rs ih =>
      have h' := ih fun y hy => this y (by simp [hy])
      simp only [delivered, written, List.flatMap_cons] at h' ⊢
      rw [h']
      rcases this x (by simp) with hx | hx
      · rw [if_pos hx]
      · simp [hx]

example : ∃ r, (readMany ucd15 [136, 136, 136] (.new false false)
      [.data (List.replicate 137 'a' ++ ['\n']) .active, .err, .data ['b', '\n'] .end_]).getLast? = some r ∧ r.ret = .ok 2 .end_ ∧
    ∃ r', (readMany ucd15 [200, 200] (.new false false)
      [.data (List.replicate 137 'a' ++ ['\n']) .active, .data ['b', '\n'] .end_]).getLast? = some r' ∧ r'.ret = .ok 2 .end_ := by
  refine ⟨_, rfl, by decide +kernel, _, rfl, by decide +kernel⟩

/-! ## C28 -/

/-- A call that leaves room for another scalar has delivered everything that was ready. -/
theorem room_idle {U : Ucd} (hU : TextLaws U) {k0 : Ctl} {t : TextInput} {emitted : List Char} {es src : List Event} {len : Nat}
    (h : Rel U k0 t emitted es) {r : ReadResult} (hr : readWithStatus U len t src = r) {n : Nat} {st : Status}
    (hok : r.ret = .ok n st) (hroom : n + 4 ≤ len) : Idle r.input := by
  subst hr
  have hm : maxUtf8Size = 4 := rfl
  have hN : normalizationBufferSize = 136 := rfl
  obtain ⟨hinv, -, -, -⟩ := h
  unfold readWithStatus at hok ⊢
  split at hok
  · simp at hok
  · rename_i hl
    rw [if_neg hl]
    cases hd : drain U (len + 1) len t with
    | mk stop p =>
      obtain ⟨out, t1⟩ := p
      obtain ⟨i1, i2, i3, i4, i5, i6, i7⟩ := drain_inv hU _ _ _ _ _ hinv (by omega) (by omega) _ _ _ hd
      rw [hd] at hok
      cases stop with
      | panic => simp at hok
      | full =>
        simp only [Ret.ok.injEq] at hok
        have := i7 rfl
        omega
      | empty =>
        obtain ⟨i61, i62⟩ := i6 rfl
        simp only at hok ⊢
        split
        · exact ⟨i62.quick, i62.iter, i62.queue⟩
        · rename_i hp
          rw [if_neg hp] at hok
          cases hn : nextEvent src with
          | mk e src' =>
            cases e with
            | err => rw [hn] at hok; simp at hok
            | data s status =>
              rw [hn] at hok
              simp only at hok ⊢
              generalize hT : (if status ≠ .active then _ else _ : TextInput) = T at hok ⊢
              have hT' : ∃ k q o, T = { t1 with ctl := k, queue := t1.queue ++ o, pending := q } := by
                rw [← hT]
                split
                · exact ⟨_, _, _, by rw [List.append_assoc]⟩
                · exact ⟨_, _, _, rfl⟩
              obtain ⟨k, q, o, rfl⟩ := hT'
              have hI := i1.append i62 k o q
              cases hd2 : drain U (len + 1) (len - (encode out).length) { t1 with ctl := k, queue := t1.queue ++ o, pending := q } with
              | mk stop p =>
                obtain ⟨out', t2⟩ := p
                obtain ⟨j1, j2, j3, j4, j5, j6, j7⟩ := drain_inv hU _ _ _ _ _ hI (by omega) (by omega) _ _ _ hd2
                rw [hd2] at hok
                cases stop with
                | panic => simp at hok
                | full =>
                  simp only [Ret.ok.injEq, encode_append, List.length_append] at hok
                  have := j7 rfl
                  omega
                | empty =>
                  have j := (j6 rfl).2
                  simp only
                  split
                  · exact ⟨j.quick, j.iter, j.queue⟩
                  · exact j

theorem flatten_last_boundary {segs : List (List Char)} (h : ∀ s ∈ segs, IsSeg s) :
    segs.flatten = [] ∨ ∃ c, segs.flatten.getLast? = some c ∧ isBoundary c = true := by
  rcases List.eq_nil_or_concat segs with rfl | ⟨l, s, rfl⟩
  · left; rfl
  · right
    rw [List.concat_eq_append] at h ⊢
    obtain ⟨x, b, rfl, hb⟩ := h s (by simp)
    exact ⟨b, by simp, hb⟩

/-- `abandon` panics exactly when the text converted so far ends in the middle of a line. -/
theorem abandon_idle {U : Ucd} {k0 : Ctl} {t : TextInput} {emitted : List Char} {es : List Event} (h : Rel U k0 t emitted es)
    (hi : Idle t) : t.abandon = none ↔ ∃ c ∈ (absorbAll U (k0, []) es).2.getLast?, isBoundary c = false := by
  obtain ⟨segs, h1, -, h3⟩ := h.inv.ex
  rw [hi.quick, List.drop_zero] at h1
  rw [h1]
  unfold TextInput.abandon
  cases hq : t.queue with
  | nil =>
    simp only [if_true, List.append_nil]
    rcases flatten_last_boundary h3 with e | ⟨c, e, hc⟩
    · simp [e]
    · simp [e, hc]
  | cons x q =>
    simp only [List.cons_ne_nil, if_false, true_iff]
    obtain ⟨c, hc⟩ : ∃ c, (x :: q).getLast? = some c := ⟨_, List.getLast?_eq_some_getLast (by simp)⟩
    refine ⟨c, by rw [List.getLast?_append, hc]; rfl, hi.queue c ?_⟩
    rw [hq]
    exact List.mem_of_getLast? hc

/-- A scalar of a plain text file. -/
def Spec.PlainAscii (c : Char) : Prop := c = '\n' ∨ (0x20 ≤ c.toNat ∧ c.toNat < 0x7f)

theorem step_ascii {k : Ctl} {c : Char} (hc : PlainAscii c) {b : Bool} (hk : k.state = .ground b) :
    (stepChar ucd15 k c).2 = [c] ∧ ∃ b, (stepChar ucd15 k c).1.state = .ground b := by
  unfold stepChar
  rw [hk]
  simp only
  unfold groundStep
  rcases hc with rfl | ⟨h1, h2⟩
  · simp
  · have h3 : c ≠ '\n' ∧ c ≠ '\r' ∧ c ≠ FF ∧ c ≠ ESC ∧ c ≠ NEL ∧ c ≠ LS ∧ c ≠ PS := by
      refine ⟨?_, ?_, ?_, ?_, ?_, ?_, ?_⟩ <;> rintro rfl <;> revert h1 h2 <;> decide
    obtain ⟨e1, e2, e3, e4, e5, e6, e7⟩ := h3
    rw [if_neg e1, if_neg e2, if_neg e3, if_neg e4]
    have h5 : (c == NEL) = false := by simpa using e5
    have h6 : (c == LS) = false := by simpa using e6
    have h7 : (c == PS) = false := by simpa using e7
    simp only [h5, h6, h7, Bool.and_false, Bool.or_false, Bool.false_eq_true, if_false]
    have hr : ∀ n : Nat, n < 0x5f → replace (Char.ofNat (n + 0x20)) = [Char.ofNat (n + 0x20)] ∧
        isStart ucd15 (Char.ofNat (n + 0x20)) = true := by decide +kernel
    have := hr (c.toNat - 0x20) (by omega)
    rw [show c.toNat - 0x20 + 0x20 = c.toNat by omega, Char.ofNat_toNat] at this
    rw [this.1]
    refine ⟨?_, _, rfl⟩
    simp [startGuard, this.2]

theorem feed_ascii : ∀ (s : List Char) (k : Ctl), (∀ c ∈ s, PlainAscii c) → (∃ b, k.state = .ground b) →
    (feed ucd15 k s).2 = s ∧ ∃ b, (feed ucd15 k s).1.state = .ground b := by
  intro s
  induction s with
  | nil => intro k _ h; exact ⟨rfl, h⟩
  | cons c s ih =>
    rintro k hs ⟨b, hk⟩
    obtain ⟨h1, h2⟩ := step_ascii (hs c (by simp)) hk
    obtain ⟨h3, h4⟩ := ih (stepChar ucd15 k c).1 (fun x hx => hs x (by simp [hx])) h2
    exact ⟨by simp [feed, h1, h3], h4⟩

theorem absorb_ascii : ∀ (cs : List (List Char)) (kt : Ctl × List Char), (∀ s ∈ cs, ∀ c ∈ s, PlainAscii c) →
    (∃ b, kt.1.state = .ground b) → (absorbAll ucd15 kt (cs.map (.data · .active))).2 = kt.2 ++ cs.flatten := by
  intro cs
  induction cs with
  | nil => intro kt _ _; simp [absorbAll]
  | cons s cs ih =>
    rintro kt hs ⟨b, hb⟩
    have hbom : s.head? ≠ some BOM := by
      intro h
      have := hs s (by simp) BOM (List.mem_of_mem_head? h)
      revert this; unfold PlainAscii; decide
    have hp : processRaw ucd15 kt.1 s = feed ucd15 { kt.1 with atStart := false } s := by
      unfold processRaw
      have : (s.head? == some BOM) = false := by simpa using hbom
      simp [this]
    obtain ⟨h1, h2⟩ := feed_ascii s { kt.1 with atStart := false } (hs s (by simp)) ⟨b, hb⟩
    have ha : absorb ucd15 kt s .active = ((feed ucd15 { kt.1 with atStart := false } s).1, kt.2 ++ s) := by
      unfold absorb
      rw [hp]
      simp [h1]
    simp only [List.map_cons, absorbAll, ha]
    rw [ih ((feed ucd15 { kt.1 with atStart := false } s).1, kt.2 ++ s) (fun x hx => hs x (by simp [hx])) h2]
    simp

/-- C28, exactly, for plain text: after a call that left room for another scalar, `abandon` panics if and only if the
text read from the source so far does not end with a newline. -/
theorem c28_abandon_iff_partial (nel lsps : Bool) (cs : List (List Char)) (hcs : ∀ s ∈ cs, ∀ c ∈ s, PlainAscii c)
    (rest : List Event) (hrest : rest ≠ []) (lens : List Nat) (len : Nat) (r : ReadResult) (n : Nat) (st : Status)
    (hr : (readMany ucd15 (lens ++ [len]) (.new nel lsps) (cs.map (.data · .active) ++ rest)).getLast? = some r)
    (hsrc : r.src = rest) (hok : r.ret = .ok n st) (hroom : n + 4 ≤ len) :
    r.input.abandon = none ↔ ∃ c ∈ cs.flatten.getLast?, c ≠ '\n' := by
  have hs := readMany_append (U := ucd15) lens [len] (.new nel lsps) (cs.map (.data · .active) ++ rest)
  obtain ⟨es', -, j2, -, -⟩ := run_rel textLaws15 lens (.new nel lsps) (cs.map (.data · .active) ++ rest) [] [] (Rel.init nel lsps)
  obtain ⟨es, k1, k2, -, -⟩ := run_rel textLaws15 (lens ++ [len]) (.new nel lsps) (cs.map (.data · .active) ++ rest) [] [] (Rel.init nel lsps)
  have hf : finalState (.new nel lsps) (cs.map (.data · .active) ++ rest) (readMany ucd15 (lens ++ [len]) (.new nel lsps)
      (cs.map (.data · .active) ++ rest)) = (r.input, r.src) := by
    unfold finalState; rw [hr]
  rw [hf] at k1 k2
  rw [hs] at hr
  simp only [readMany, List.getLast?_append, List.getLast?_singleton, Option.some_or, Option.some.injEq] at hr
  have hidle := room_idle textLaws15 j2 hr hok hroom
  rw [hsrc] at k1
  obtain ⟨m, hm, hm'⟩ := k1
  have hm0 : m = 0 := Classical.byContradiction fun h => hrest (hm' h)
  subst hm0
  simp only [List.replicate_zero, List.append_nil] at hm
  have hes := List.append_cancel_right hm
  rw [abandon_idle k2 hidle, List.nil_append, hes, absorb_ascii cs _ hcs ⟨true, rfl⟩, List.nil_append]
  constructor
  · rintro ⟨c, hc, hb⟩
    refine ⟨c, hc, ?_⟩
    rintro rfl
    simp [isBoundary] at hb
  · rintro ⟨c, hc, hb⟩
    refine ⟨c, hc, ?_⟩
    have hmem := List.mem_of_getLast? hc
    obtain ⟨s, hs1, hs2⟩ := List.mem_flatten.1 hmem
    have hp := hcs s hs1 c hs2
    have h1 : (c == '\n') = false := by simpa using hb
    have h2 : (c == CGJ) = false := by
      simp only [beq_eq_false_iff_ne, ne_eq]
      rintro rfl
      revert hp; unfold PlainAscii; decide
    simp [isBoundary, h1, h2]

example : ∃ r, (readMany ucd15 ([136] ++ [136]) (.new false false) ([['a', '\n', 'b'], ['c']].map (.data · .active) ++ [.err])).getLast? =
    some r ∧ r.src = [.err] ∧ r.ret = .ok 0 .active := ⟨_, rfl, by decide +kernel, by decide +kernel⟩

/-! ## C31 -/

theorem nss_append_iff {U : Ucd} (hU : TextLaws U) {a b : List Char} (ha : U.isNfcStreamSafe a = true) (hb : U.isNfcStreamSafe b = true)
    (hh : ∀ c ∈ b.head?, isStart U c = true) :
    U.isNfcStreamSafe (a ++ b) = true ↔ ∀ x ∈ a.getLast?, ∀ c ∈ b.head?, ¬ Joins U x c := by
  cases b with
  | nil => simpa using ha
  | cons c b =>
    have hs := hh c (by simp)
    rw [nss_iff hU.law] at ha hb
    have h1 := lc_append_iff hU.law hb.2 (start_ccc hU hs) ha.2
    have h2 := chk_concat hU.law (a := a) (b := c :: b) (n := 0) (fun d hd => by
      simp only [List.head?_cons, Option.mem_def, Option.some.injEq] at hd
      subst hd
      exact ⟨hU.start_lead _ hs, hU.dlen_pos _⟩) (Nat.zero_le _) ha.1 hb.1
    rw [nss_iff hU.law, h1]
    constructor
    · rintro ⟨-, -, h3⟩ x hx d hd
      simp only [List.head?_cons, Option.mem_def, Option.some.injEq] at hd
      subst hd
      exact h3 x hx
    · intro h
      exact ⟨h2, by simp, fun x hx => h x hx c (by simp)⟩

theorem said_start {op : Op} (h : ∀ c ∈ op.src.head?, isStart ucd15 c = true) : ∀ c ∈ (said ucd15 op).head?, isStart ucd15 c = true := by
  cases op with
  | str s => exact head_normChain textLaws15 h
  | text s => exact h
  | bytes b => exact head_normChain textLaws15 h
  | _ => simp [said]

theorem enc_start {crlf : Bool} {s : List Char} (h : ∀ c ∈ s.head?, isStart ucd15 c = true) : ∀ c ∈ (enc crlf s).head?, isStart ucd15 c = true := by
  unfold enc
  split
  · cases s with
    | nil => simp [toCrlf]
    | cons c s =>
      by_cases hc : c = '\n'
      · subst hc
        intro d hd
        simp [toCrlf] at hd
        rw [← hd]; decide +kernel
      · intro d hd
        simp [toCrlf, hc] at hd
        rw [← hd]; exact h c rfl
  · exact h

theorem pend_head {w : Writer} (h : SeqOk w) : ∀ c ∈ (pend w).head?, c = ESC := by
  unfold SeqOk at h
  unfold pend
  cases hs : w.state with
  | ground g => simp
  | esc =>
    rw [hs] at h
    simp only at h ⊢
    rw [h.1]; simp
  | csi =>
    rw [hs] at h
    simp only at h ⊢
    obtain ⟨⟨ps, hp, he⟩, -⟩ := h
    rw [he]; simp

theorem stateMachine_head {w p : Writer} {s : List Char} (h : stateMachine ucd15 w s = (p, .ok)) (hs : SeqOk w) (hb : w.buffer = []) :
    ∀ c ∈ p.buffer.head?, c = ESC ∨ c ∈ (normChain ucd15 s).head? := by
  have h2 := (putAll_ok (stateMachine_ok textLaws15 h).2).2.1
  rw [hb, List.nil_append] at h2
  intro c hc
  have h3 : c ∈ (pend w ++ normChain ucd15 s).head? := by
    rw [← h2, List.head?_append, Option.mem_def.1 hc]; rfl
  rw [List.head?_append] at h3
  cases hp : (pend w).head? with
  | none => rw [hp] at h3; exact Or.inr h3
  | some d =>
    rw [hp] at h3
    simp only [Option.mem_def] at h3
    rw [← Option.some.inj h3]
    exact Or.inl (pend_head hs d hp)

/-- Without CRLF, with or without color, the first scalar a write makes ready is the first of what it was given, or the escape of a color
sequence. -/
theorem load_head {op : Op} (hw : op.isWrite = true) {w p : Writer} (hl : load ucd15 w op = (p, .ok)) (hm : w.crlf = false)
    (hs : SeqOk w) (hb : w.buffer = []) : ∀ c ∈ p.buffer.head?, c = ESC ∨ c ∈ (said ucd15 op).head? := by
  cases op with
  | str s =>
    simp only [load, prepStr, hm] at hl
    exact stateMachine_head (by simpa using hl) hs hb
  | text s =>
    simp only [load, prepText, hm, Prod.mk.injEq, and_true] at hl
    rw [← hl]
    intro c hc
    right
    simpa [hb, said] using hc
  | bytes b =>
    simp only [load] at hl
    split at hl
    · simp only [prepStr, hm] at hl
      exact stateMachine_head (by simpa using hl) hs hb
    · simp at hl
  | _ => simp [Op.isWrite] at hw

/-- What one call sends begins like the text it was given. -/
theorem step_start {base : List Char} {op : Op} (ho : op.Ok ucd15) (hh : ∀ c ∈ op.src.head?, isStart ucd15 c = true)
    {w : Writer} (h : Safe base w) (hm : w.crlf = false ∨ w.ansi = false) {d : List Char} (hd : Delta w (step ucd15 w op).1 d) :
    ∀ c ∈ d.head?, isStart ucd15 c = true := by
  unfold Delta at hd
  cases hw : op.isWrite with
  | false =>
    have : d = [] := by
      cases op with
      | str | text | bytes => simp [Op.isWrite] at hw
      | flush | close | abandon =>
        simp only [step] at hd
        first
        | (rcases flush_cases w with ⟨hf, -⟩ | ⟨hf, -⟩ | ⟨-, hf⟩ <;> rw [hf] at hd
           · simpa [Writer.fail, Writer.reset, Sink.abandon] using hd
           · simpa using hd
           · simpa [(sink_flush_sent w.sink).1] using hd)
        | (rcases close_cases w with ⟨hf, -⟩ | ⟨-, hf⟩ <;> rw [hf] at hd
           · simpa [Writer.fail, Writer.reset, Sink.abandon] using hd
           · simpa [Sink.close, (sink_flush_sent w.sink).1] using hd)
        | simpa [abandon, Writer.reset, Sink.abandon] using hd
    rw [this]; simp
  | true =>
    have key : ∀ p, load ucd15 w op = (p, .ok) → w.sink.dead = false → ∀ c ∈ p.buffer.head?, isStart ucd15 c = true := by
      intro p hl hd
      obtain ⟨b1, b2, -⟩ := h.live hd
      rcases hm with hm | ha
      · intro c hc
        rcases load_head hw hl hm b2 b1 c hc with rfl | h
        · decide +kernel
        · exact said_start hh c h
      · rw [load_buffer textLaws15 hw hl ha b2 b1]
        exact enc_start (said_start hh)
    rcases write_cases textLaws15 hw w with ⟨p, w', hl, hs, hS⟩ | ⟨p, w', hl, hs, hB⟩ | ⟨w', hl, hs, hF⟩
    · have hL := (load_ok textLaws15 ho hl).1
      rw [hs] at hd
      simp only at hd
      rw [hS.sent, hL.sink] at hd
      rw [← List.append_cancel_left hd]
      exact key p hl (by rw [← hL.sink]; exact hS.alive)
    · have hL := (load_ok textLaws15 ho hl).1
      rw [hs] at hd
      obtain ⟨q, x, e1, e2, e3, -⟩ := hB.sent
      simp only at hd
      rw [e2, hL.sink] at hd
      rw [← List.append_cancel_left hd]
      cases hdd : w.sink.dead with
      | true => rw [e3 (by rw [hL.sink]; exact hdd)]; simp
      | false =>
        have := key p hl hdd
        rw [e1] at this
        intro c hc
        exact this c (by rw [List.head?_append, hc]; rfl)
    · rw [hs] at hd
      simp only at hd
      rw [hF.sink] at hd
      simp only [Sink.abandon] at hd
      have : d = [] := by simpa using hd
      rw [this]; simp

/-- What the calls of `ops` have sent. -/
def Spec.sentBy (w : Writer) (ops : List Op) : List Char := (run ucd15 w ops).sink.sent.drop w.sink.sent.length

theorem run_append' (w : Writer) (a b : List Op) : run ucd15 w (a ++ b) = run ucd15 (run ucd15 w a) b := by
  induction a generalizing w with
  | nil => rfl
  | cons op a ih => exact ih _

theorem run_safe {base : List Char} (ops : List Op) : ∀ {w : Writer}, (∀ op ∈ ops, op.Ok ucd15) → Safe base w →
    (w.crlf = false ∨ w.ansi = false) → Safe base (run ucd15 w ops) ∧ ((run ucd15 w ops).crlf = false ∨ (run ucd15 w ops).ansi = false) := by
  induction ops with
  | nil => intro w _ h ha; exact ⟨h, ha⟩
  | cons op ops ih =>
    intro w ho h hm
    obtain ⟨m1, m2⟩ := step_mode textLaws15 (ho op (by simp)) w
    exact ih (fun o h => ho o (by simp [h])) (safe_step textLaws15 (ho op (by simp)) h) (by rw [m1, m2]; exact hm)

/-- C31, the whole stream, exactly, in every mode: if what is passed to each write call begins with a scalar that may
start Basic Text, the stream is stream-safe NFC if and only if nowhere the last scalar sent before a call and the first
scalar sent by it make a Hangul syllable. -/
theorem c31_stream_iff (w : Writer) (hw : Fresh w) (ops : List Op) (ho : ∀ op ∈ ops, op.Ok ucd15)
    (hh : ∀ op ∈ ops, ∀ c ∈ op.src.head?, isStart ucd15 c = true) :
    ucd15.isNfcStreamSafe (sentBy w ops) = true ↔
      ∀ a op b, ops = a ++ op :: b →
        ∀ x ∈ (sentBy w a).getLast?, ∀ c ∈ (sentBy (run ucd15 w a) [op]).head?, ¬ HangulJoin x c := by
  have grow : ∀ ops : List Op, (∀ op ∈ ops, op.Ok ucd15) → (run ucd15 w ops).sink.sent = w.sink.sent ++ sentBy w ops := by
    intro ops
    rcases List.eq_nil_or_concat ops with rfl | ⟨l, o, rfl⟩
    · intro _; simp [run, sentBy]
    · rw [List.concat_eq_append]
      have : ∀ (l : List Op), (∀ op ∈ l, op.Ok ucd15) → ∃ T, (run ucd15 w l).sink.sent = w.sink.sent ++ T := by
        intro l
        induction hl : l.length generalizing l with
        | zero =>
          intro _
          have := List.length_eq_zero_iff.1 hl
          subst this
          exact ⟨[], by simp [run]⟩
        | succ n ih =>
          rcases List.eq_nil_or_concat l with rfl | ⟨l', o, rfl⟩
          · simp at hl
          · rw [List.concat_eq_append] at *
            intro ho
            obtain ⟨T, hT⟩ := ih l' (by simpa using hl) (fun o h => ho o (by simp [h]))
            obtain ⟨d, hd, -⟩ := c31_write_nfc w hw l' (fun o h => ho o (by simp [h])) o (ho o (by simp))
            exact ⟨T ++ d, by rw [hd, hT]; simp⟩
      intro ho
      obtain ⟨T, hT⟩ := this _ ho
      unfold sentBy
      rw [hT]; simp
  induction hl : ops.length generalizing ops with
  | zero =>
    have := List.length_eq_zero_iff.1 hl
    subst this
    have : sentBy w [] = [] := by simp [sentBy, run]
    rw [this]
    simp [nss_nil]
  | succ n ih =>
    rcases List.eq_nil_or_concat ops with rfl | ⟨l, o, rfl⟩
    · simp at hl
    · rw [List.concat_eq_append] at *
      have ho' : ∀ op ∈ l, op.Ok ucd15 := fun o h => ho o (by simp [h])
      have hh' : ∀ op ∈ l, ∀ c ∈ op.src.head?, isStart ucd15 c = true := fun o h => hh o (by simp [h])
      have ih := ih l ho' hh' (by simpa using hl)
      obtain ⟨d, hd, hn⟩ := c31_write_nfc w hw l ho' o (ho o (by simp))
      have hrun : run ucd15 w (l ++ [o]) = (step ucd15 (run ucd15 w l) o).1 := by
        rw [run_append']; rfl
      have hd' : sentBy (run ucd15 w l) [o] = d := by
        unfold sentBy
        rw [← run_append', hd]; simp
      have hs : sentBy w (l ++ [o]) = sentBy w l ++ d := by
        have h1 := grow _ ho
        rw [hd, grow l ho', List.append_assoc] at h1
        exact (List.append_cancel_left h1).symm
      obtain ⟨s1, s2⟩ := run_safe l ho' hw.safe hw.mode
      have hst : ∀ c ∈ d.head?, isStart ucd15 c = true :=
        step_start (ho o (by simp)) (hh o (by simp)) s1 s2 (by unfold Delta; rw [← hrun, hd])
      rw [hs]
      constructor
      · intro h a op b e
        have hp := nss_prefix textLaws15.law h
        rcases List.eq_nil_or_concat b with rfl | ⟨b', y, rfl⟩
        · have e' := List.append_inj' e rfl
          simp only [List.cons.injEq, and_true] at e'
          obtain ⟨rfl, rfl⟩ := e'
          rw [hd']
          intro x hx c hc hj
          exact (nss_append_iff textLaws15 hp hn hst).1 h x hx c hc ((joins_iff (hst c hc)).2 hj)
        · rw [List.concat_eq_append] at e
          have e' := List.append_inj' (s₁ := l) (s₂ := a ++ op :: b') (t₁ := [o]) (t₂ := [y]) (by rw [e]; simp) rfl
          exact ih.1 hp a op b' e'.1
      · intro h
        have hp := ih.2 fun a op b e => h a op (b ++ [o]) (by rw [e]; simp)
        have hj := h l o [] rfl
        rw [hd'] at hj
        exact (nss_append_iff textLaws15 hp hn hst).2 fun x hx c hc h' => hj x hx c hc ((joins_iff (hst c hc)).1 h')

example : Fresh (Writer.new goodSink) ∧ sentBy (.new goodSink) [.text ['ᄀ'], .text ['ᅡ']] = ['ᄀ', 'ᅡ'] ∧
    sentBy (.new goodSink) [.text ['ᄀ'], .str ['ᅡ', '\n']] = ['ᄀ', 'ᅡ', '\n'] ∧ isStart ucd15 'ᅡ' = true :=
  ⟨fresh_new _, by decide +kernel, by decide +kernel, by decide +kernel⟩

end Verif
