import Verif.CutAdds
import Verif.Props.Sharp

/-!
# Exactly when abandoning a reader panics (C28)
-/

namespace Verif
open Ucd Spec Tables
variable {U : Ucd}

/-- C28, exactly: after a call that left room for another scalar, `abandon` panics if and only if the text that has come so far, converted as far as
it is decided, is not empty and ends neither with a newline nor with U+34F. -/
theorem c28_exact (nel lsps : Bool) (chunks : List (List Char)) (hb : BomSafe chunks []) (rest : List Event) (hrest : rest ≠ []) (lens : List Nat)
    (len : Nat) (r : ReadResult) (n : Nat) (st : Status)
    (hr : (readMany ucd15 (lens ++ [len]) (.new nel lsps) (chunks.map (fun c => .data c .active) ++ rest)).getLast? = some r)
    (hsrc : r.src = rest) (hok : r.ret = .ok n st) (hroom : n + 4 ≤ len) :
    r.input.abandon = none ↔ ∃ c ∈ (settled ucd15 nel lsps (dropBom chunks.flatten)).getLast?, c ≠ '\n' ∧ c ≠ CGJ := by
  have hs := readMany_append (U := ucd15) lens [len] (.new nel lsps) (chunks.map (fun c => .data c .active) ++ rest)
  obtain ⟨es', -, j2, -, -⟩ := run_rel textLaws15 lens (.new nel lsps) (chunks.map (fun c => .data c .active) ++ rest) [] [] (Rel.init nel lsps)
  obtain ⟨es, k1, k2, -, -⟩ := run_rel textLaws15 (lens ++ [len]) (.new nel lsps) (chunks.map (fun c => .data c .active) ++ rest) [] [] (Rel.init nel lsps)
  have hf : finalState (.new nel lsps) (chunks.map (fun c => .data c .active) ++ rest) (readMany ucd15 (lens ++ [len]) (.new nel lsps)
      (chunks.map (fun c => .data c .active) ++ rest)) = (r.input, r.src) := by
    unfold finalState; rw [hr]
  rw [hf] at k1 k2
  rw [hs] at hr
  simp only [readMany, List.getLast?_append, List.getLast?_singleton, Option.some_or, Option.some.injEq] at hr
  have hidle := room_idle textLaws15 j2 hr hok hroom
  rw [hsrc] at k1
  obtain ⟨m, hm, hm'⟩ := k1
  have hm0 : m = 0 := Classical.byContradiction fun h => hrest (hm' h)
  subst hm0
  simp only [List.replicate_zero, List.append_nil] at hm
  have hes := List.append_cancel_right hm
  have hp := absorbAll_part textLaws15 nel lsps hb chunks.length
  rw [List.take_length] at hp
  rw [abandon_idle k2 hidle, List.nil_append, hes, hp]
  simp [isBoundary]

/-! ## Contents without escapes -/

namespace Spec

/-- The last scalar that is not left open: U+D at the end may be half of a newline, and U+C before it or at the end may be removed with one. -/
def lastDecided (s : List Char) : Option Char :=
  ((if s.reverse.head? = some '\r' then s.reverse.tail else s.reverse).dropWhile (· == FF)).head?

/-- A scalar that makes a newline. -/
def Breaks (nel lsps : Bool) (c : Char) : Prop := c = '\n' ∨ c = '\r' ∨ (nel = true ∧ c = NEL) ∨ (lsps = true ∧ (c = LS ∨ c = PS))

end Spec

theorem lastDecided_nil : lastDecided [] = none := rfl

theorem lastDecided_cr (s : List Char) : lastDecided (s ++ ['\r']) = (s.reverse.dropWhile (· == FF)).head? := by
  simp [lastDecided]

theorem lastDecided_ff (s : List Char) : lastDecided (s ++ [FF]) = (s.reverse.dropWhile (· == FF)).head? := by
  simp [lastDecided, FF]

theorem lastDecided_other {s : List Char} {c : Char} (h1 : c ≠ '\r') (h2 : c ≠ FF) : lastDecided (s ++ [c]) = some c := by
  simp [lastDecided, h1, h2]

/-- What `replace` makes of a scalar ends with a newline or U+34F only if it is that. -/
theorem replace_boundary (c d : Char) (h : d ∈ replace c) (hd : isBoundary d = true) : replace c = [d] ∧ c = d := by
  have hm : replaceMulti.all (fun r => r.2.all fun n => n != 10 && n != 0x34f) = true := by
    decide +kernel
  have hd' : d.toNat = 10 ∨ d.toNat = 0x34f := by
    simp only [isBoundary, Bool.or_eq_true, beq_iff_eq] at hd
    rcases hd with rfl | rfl <;> decide
  rcases replace_cases c with ⟨-, v, hv, e⟩ | ⟨-, e⟩ | ⟨h1, e⟩
  · rw [e] at h
    obtain ⟨n, hn, rfl⟩ := List.mem_map.1 h
    have := List.all_eq_true.1 (List.all_eq_true.1 hm _ hv) n hn
    simp only [Bool.and_eq_true, bne_iff_ne, ne_eq] at this
    have hv' := List.all_eq_true.1 multi_ok _ hv
    simp only [Bool.and_eq_true, List.all_eq_true] at hv'
    rw [toNat_ofNat (hv'.1.1 n hn).2] at hd'
    omega
  · rw [e] at h
    have : d = REPL := by simpa using h
    subst this
    exact absurd hd (by decide)
  · rw [e] at h
    have : d = c := by simpa using h
    subst this
    exact ⟨e, rfl⟩

/-- What has been fed: the state and the end of the output. -/
structure Fed (nel lsps : Bool) (k : Ctl) (T s : List Char) : Prop where
  modes : k.nel = nel ∧ k.lsps = lsps
  cr : s.getLast? = some '\r' → k.state = .cr
  ff : s.getLast? = some FF → k.state = .ff
  ground : s.getLast? ≠ some '\r' → s.getLast? ≠ some FF → ∃ b, k.state = .ground b
  open_ : (∃ c ∈ T.getLast?, isBoundary c = false) ↔ ∃ c ∈ lastDecided s, ¬ Breaks nel lsps c ∧ c ≠ CGJ

theorem fed_ground (_hU : TextLaws U) {nel lsps : Bool} {k : Ctl} {T s : List Char} {c : Char} (hm : k.nel = nel ∧ k.lsps = lsps) (hc : c ≠ ESC)
    (hT : c = '\r' ∨ c = FF → ((∃ d ∈ T.getLast?, isBoundary d = false) ↔ ∃ d ∈ lastDecided (s ++ [c]), ¬ Breaks nel lsps d ∧ d ≠ CGJ)) :
    Fed nel lsps (groundStep U k c).1 (T ++ (groundStep U k c).2) (s ++ [c]) := by
  unfold groundStep
  split
  · rename_i h; subst h
    refine ⟨hm, by simp, by simp [FF], fun _ _ => ⟨true, rfl⟩, ?_⟩
    rw [lastDecided_other (by decide) (by decide)]
    simp [isBoundary, Breaks]
  · split
    · rename_i h; subst h
      exact ⟨hm, fun _ => rfl, by simp [FF], by simp, by simpa using hT (.inl rfl)⟩
    · split
      · rename_i h; subst h
        exact ⟨hm, by simp [FF], fun _ => rfl, by simp, by simpa using hT (.inr rfl)⟩
      · rename_i h1 h2 h3
        simp only
        refine ⟨hm, by simp [h2], by simp [h3], fun _ _ => ⟨_, rfl⟩, ?_⟩
        rw [lastDecided_other h2 h3]
        obtain ⟨rfl, rfl⟩ := hm
        generalize hnl : ((k.nel && c == NEL) || (k.lsps && (c == LS || c == PS))) = nl
        have hbr : Breaks k.nel k.lsps c ↔ nl = true := by
          rw [← hnl]
          simp [Breaks, h1, h2]
        have hlast : ∀ r : List Char, r ≠ [] → (T ++ startGuard U k.expectStarter r).getLast? = r.getLast? := by
          intro r hr
          unfold startGuard
          rw [List.getLast?_append]
          rcases List.eq_nil_or_concat r with rfl | ⟨x, d, rfl⟩
          · exact absurd rfl hr
          · rw [List.concat_eq_append]
            split
            · rw [show CGJ :: (x ++ [d]) = (CGJ :: x) ++ [d] from rfl, List.getLast?_concat, List.getLast?_concat]; rfl
            · rw [List.getLast?_concat]; rfl
        rw [hlast _ (replace_ne_nil _)]
        simp only [Option.mem_def, Option.some.injEq, exists_eq_left', hbr]
        cases nl with
        | true => simp [replace_nl, isBoundary]
        | false =>
          simp only [Bool.false_eq_true, if_false, not_false_eq_true, true_and]
          constructor
          · rintro ⟨d, hd, hdb⟩ rfl
            rw [replace_ok (by decide +kernel)] at hd
            simp at hd
            subst hd
            exact absurd hdb (by decide)
          · intro hcg
            rcases List.eq_nil_or_concat (replace c) with h | ⟨x, d, h⟩
            · exact absurd h (replace_ne_nil c)
            · rw [List.concat_eq_append] at h
              refine ⟨d, by rw [h]; simp, ?_⟩
              cases hb : isBoundary d with
              | false => rfl
              | true =>
                obtain ⟨-, rfl⟩ := replace_boundary c d (by rw [h]; simp) hb
                simp [isBoundary] at hb
                exact absurd hb (by simp [h1, hcg])

theorem fed_step (hU : TextLaws U) {nel lsps : Bool} {k : Ctl} {T s : List Char} {c : Char} (h : Fed nel lsps k T s) (hc : c ≠ ESC) :
    Fed nel lsps (stepChar U k c).1 (T ++ (stepChar U k c).2) (s ++ [c]) := by
  have hlast : ∀ x : List Char, (∀ d ∈ x.getLast?, d = '\r' ∨ d = '\n') → x ≠ [] →
      (x.reverse.dropWhile (· == FF)).head? = x.getLast? := by
    intro x hx hne
    rcases List.eq_nil_or_concat x with rfl | ⟨y, d, rfl⟩
    · exact absurd rfl hne
    · rw [List.concat_eq_append] at hx ⊢
      have : d ≠ FF := by
        rcases hx d (by simp) with rfl | rfl <;> decide
      simp [this]
  by_cases h1 : s.getLast? = some '\r'
  · have hst := h.cr h1
    have hne : s ≠ [] := by rintro rfl; simp at h1
    have hls := hlast s (by rw [h1]; simp) hne
    unfold stepChar
    rw [hst]
    simp only
    split
    · have := fed_ground hU (k := { k with state := .ground true, expectStarter := false }) (T := T ++ ['\n']) (s := s) (c := c) h.modes hc ?_
      · simpa using this
      · rintro (rfl | rfl)
        · rw [lastDecided_cr, hls, h1]; simp [isBoundary, Breaks]
        · rw [lastDecided_ff, hls, h1]; simp [isBoundary, Breaks]
    · rename_i hn
      simp only [ne_eq, Decidable.not_not] at hn
      subst hn
      refine ⟨h.modes, by simp, by simp [FF], fun _ _ => ⟨true, rfl⟩, ?_⟩
      rw [lastDecided_other (by decide) (by decide)]
      simp [isBoundary, Breaks]
  · by_cases h2 : s.getLast? = some FF
    · have hst := h.ff h2
      have hld : lastDecided s = (s.reverse.dropWhile (· == FF)).head? := by
        unfold lastDecided
        rw [List.head?_reverse, h2, if_neg (by decide)]
      unfold stepChar
      rw [hst]
      simp only
      split
      · rename_i hn
        by_cases hr : c = '\r'
        · subst hr
          have := fed_ground hU (k := { k with state := .ground false, expectStarter := false }) (T := T) (s := s) (c := '\r') h.modes hc ?_
          · simpa using this
          · intro _; rw [lastDecided_cr, ← hld]; exact h.open_
        · by_cases hnl : c = '\n'
          · subst hnl
            have := fed_ground hU (k := { k with state := .ground false, expectStarter := false }) (T := T) (s := s) (c := '\n') h.modes hc ?_
            · simpa using this
            · rintro (h' | h') <;> exact absurd h' (by decide)
          · have := fed_ground hU (k := { k with state := .ground false, expectStarter := false }) (T := T ++ [' ']) (s := s) (c := c) h.modes hc ?_
            · simpa [hr, hnl] using this
            · rintro (h' | h')
              · exact absurd h' hr
              · exact absurd h' hn
      · rename_i hn
        simp only [ne_eq, Decidable.not_not] at hn
        subst hn
        refine ⟨h.modes, by simp [FF], fun _ => hst, by simp, ?_⟩
        rw [lastDecided_ff, ← hld, List.append_nil]
        exact h.open_
    · obtain ⟨b, hst⟩ := h.ground h1 h2
      have hld : ∀ c, c = '\r' ∨ c = FF → lastDecided (s ++ [c]) = lastDecided s := by
        intro c hc
        have : lastDecided (s ++ [c]) = (s.reverse.dropWhile (· == FF)).head? := by
          rcases hc with rfl | rfl
          · exact lastDecided_cr s
          · exact lastDecided_ff s
        rw [this]
        unfold lastDecided
        rw [List.head?_reverse, if_neg h1]
      unfold stepChar
      rw [hst]
      exact fed_ground hU h.modes hc fun h' => by rw [hld c h']; exact h.open_

theorem fed_all (hU : TextLaws U) {nel lsps : Bool} : ∀ (x : List Char) {k : Ctl} {T s : List Char}, Fed nel lsps k T s → ESC ∉ x →
    Fed nel lsps (feed U k x).1 (T ++ (feed U k x).2) (s ++ x) := by
  intro x
  induction x with
  | nil => intro k T s h _; simpa [feed] using h
  | cons c x ih =>
    intro k T s h hx
    simp only [List.mem_cons, not_or] at hx
    have := ih (fed_step hU h (Ne.symm hx.1)) hx.2
    simpa [feed] using this

/-- C28, exactly, for contents without escapes: `abandon` panics if and only if something has come, apart from U+FEFF at its start and an open U+D or U+C
at its end, and it ends neither with a newline nor with U+34F. -/
theorem c28_exact_plain (nel lsps : Bool) (chunks : List (List Char)) (hb : BomSafe chunks []) (he : ESC ∉ chunks.flatten) (rest : List Event)
    (hrest : rest ≠ []) (lens : List Nat) (len : Nat) (r : ReadResult) (n : Nat) (st : Status)
    (hr : (readMany ucd15 (lens ++ [len]) (.new nel lsps) (chunks.map (fun c => .data c .active) ++ rest)).getLast? = some r)
    (hsrc : r.src = rest) (hok : r.ret = .ok n st) (hroom : n + 4 ≤ len) :
    r.input.abandon = none ↔ ∃ c ∈ lastDecided (dropBom chunks.flatten), ¬ Breaks nel lsps c ∧ c ≠ CGJ := by
  rw [c28_exact nel lsps chunks hb rest hrest lens len r n st hr hsrc hok hroom, ← feed_settled textLaws15]
  have h0 : Fed nel lsps (firstCtl nel lsps) [] [] := ⟨⟨rfl, rfl⟩, by simp, by simp, fun _ _ => ⟨true, rfl⟩, by simp [lastDecided]⟩
  have hesc : ESC ∉ dropBom chunks.flatten := by
    intro h
    apply he
    revert h
    cases chunks.flatten with
    | nil => exact id
    | cons c s =>
      simp only [dropBom, dropOne]
      split
      · intro h; exact List.mem_cons_of_mem _ h
      · exact id
  have := (fed_all textLaws15 _ h0 hesc).open_
  simp only [List.nil_append] at this
  rw [← this]
  simp [isBoundary]

/-- An open line; a line and an open carriage return; a line that ends with U+34F. -/
example : (∃ c ∈ lastDecided (dropBom ['a', '\x0c', '\r']), ¬ Breaks false false c ∧ c ≠ CGJ) ∧
    ¬ (∃ c ∈ lastDecided (dropBom ['a', '\r', '\x0c', '\r']), ¬ Breaks false false c ∧ c ≠ CGJ) ∧
    ¬ (∃ c ∈ lastDecided (dropBom ['a', CGJ]), ¬ Breaks false false c ∧ c ≠ CGJ) := by
  unfold Breaks; decide

example : ∃ r, (readMany ucd15 ([136] ++ [136]) (.new false false) ([['a', '\n', 'é'], ['c', '\x0c']].map (fun c => .data c .active) ++ [.err])).getLast? =
    some r ∧ r.src = [.err] ∧ r.ret = .ok 0 .active ∧ r.input.abandon = none := ⟨_, rfl, by decide +kernel, by decide +kernel, by decide +kernel⟩

/-! ## After abandoning -/

/-- A call that leaves room for another scalar leaves no status to be reported. -/
theorem room_pending (hU : TextLaws U) {k0 : Ctl} {t : TextInput} {emitted : List Char} {es src : List Event} {len : Nat}
    (h : Rel U k0 t emitted es) {r : ReadResult} (hr : readWithStatus U len t src = r) {n : Nat} {st : Status}
    (hok : r.ret = .ok n st) (hroom : n + 4 ≤ len) : r.input.pending = .active := by
  subst hr
  have hm : maxUtf8Size = 4 := rfl
  have hN : normalizationBufferSize = 136 := rfl
  obtain ⟨hinv, -, -, -⟩ := h
  unfold readWithStatus at hok ⊢
  split at hok
  · simp at hok
  · rename_i hl
    rw [if_neg hl]
    cases hd : drain U (len + 1) len t with
    | mk stop p =>
      obtain ⟨out, t1⟩ := p
      obtain ⟨i1, i2, i3, i4, i5, i6, i7⟩ := drain_inv hU _ _ _ _ _ hinv (by omega) (by omega) _ _ _ hd
      rw [hd] at hok
      cases stop with
      | panic => simp at hok
      | full =>
        simp only [Ret.ok.injEq] at hok
        have := i7 rfl
        omega
      | empty =>
        obtain ⟨i61, i62⟩ := i6 rfl
        simp only at hok ⊢
        split
        · rfl
        · rename_i hp
          have hp' : t1.pending = .active := Classical.not_not.1 hp
          rw [if_neg hp] at hok
          cases hn : nextEvent src with
          | mk e src' =>
            cases e with
            | err => exact hp'
            | data s status =>
              rw [hn] at hok
              simp only at hok ⊢
              generalize hT : (if status ≠ .active then _ else _ : TextInput) = T at hok ⊢
              have hT' : ∃ k o, T = { t1 with ctl := k, queue := t1.queue ++ o } := by
                rw [← hT]
                split
                · exact ⟨_, _, by rw [List.append_assoc]⟩
                · exact ⟨_, _, rfl⟩
              obtain ⟨k, o, rfl⟩ := hT'
              have hI := i1.append i62 k o t1.pending
              cases hd2 : drain U (len + 1) (len - (encode out).length) { t1 with ctl := k, queue := t1.queue ++ o } with
              | mk stop p =>
                obtain ⟨out', t2⟩ := p
                obtain ⟨j1, j2, j3, j4, j5, j6, j7⟩ := drain_inv hU _ _ _ _ _ hI (by omega) (by omega) _ _ _ hd2
                rw [hd2] at hok
                cases stop with
                | panic => simp at hok
                | full =>
                  simp only [Ret.ok.injEq, encode_append, List.length_append] at hok
                  have := j7 rfl
                  omega
                | empty =>
                  have j3 : t2.pending = .active := j3.trans hp'
                  simp only
                  split
                  · exact j3
                  · exact j3

/-- C28: an abandoned reader does not complete the line.  Where the reader would have ended an unfinished line with a newline, after a successful
`abandon` (and a call that left room) the end of the stream gives nothing more, whatever had been read. -/
theorem c28_no_newline (nel lsps : Bool) (src : List Event) (lens : List Nat) (len : Nat) (r : ReadResult) (n : Nat) (st : Status)
    (hr : (readMany ucd15 (lens ++ [len]) (.new nel lsps) src).getLast? = some r) (hok : r.ret = .ok n st) (hroom : n + 4 ≤ len) (t : TextInput)
    (ht : r.input.abandon = some t) (len' : Nat) (hl : normalizationBufferSize ≤ len') :
    (readWithStatus ucd15 len' t []).ret = .ok 0 .end_ ∧ (readWithStatus ucd15 len' t []).out = [] := by
  have hs := readMany_append (U := ucd15) lens [len] (.new nel lsps) src
  obtain ⟨es', -, j2, -, -⟩ := run_rel textLaws15 lens (.new nel lsps) src [] [] (Rel.init nel lsps)
  rw [hs] at hr
  simp only [readMany, List.getLast?_append, List.getLast?_singleton, Option.some_or, Option.some.injEq] at hr
  have hidle := room_idle textLaws15 j2 hr hok hroom
  have hpend := room_pending textLaws15 j2 hr hok hroom
  unfold TextInput.abandon at ht
  split at ht
  · rename_i hq
    clear hr
    rcases r with ⟨ret, out, ⟨⟨s, e, a, nl, ls⟩, q, it, qu, p⟩, sr⟩
    simp only [Option.some.injEq] at ht hq hpend
    have h1 : qu = 0 := hidle.quick
    have h2 : it = [] := hidle.iter
    subst ht hq hpend h1 h2
    have hd : ∀ f room (k : Ctl), drain ucd15 (f + 1) room { ctl := k, queue := [], iter := [], quick := 0, pending := .active } =
        (.empty, [], { ctl := k, queue := [], iter := [], quick := 0, pending := .active }) := by
      intro f room k
      rw [drain, queueNext_none ⟨rfl, rfl, by simp⟩]
    unfold readWithStatus
    rw [if_neg (by omega), hd]
    simp [nextEvent, processRaw, feed, finish, finishState, endGuard, hd, encode]
  · simp at ht

/-- An unfinished line that can be abandoned; without abandoning it the end of the stream would complete it. -/
example : let r := readWithStatus ucd15 136 (.new false false) [.data ['a', CGJ] .active]
    r.ret = .ok 3 .active ∧ r.out = ['a', CGJ] ∧ r.input.abandon.isSome = true ∧
    r.input.abandon.map (fun t => (readWithStatus ucd15 136 t []).out) = some [] ∧ (readWithStatus ucd15 136 r.input []).out = ['\n'] := by
  decide +kernel

end Verif
