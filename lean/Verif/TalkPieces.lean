import Verif.Talk
import Verif.WriterReader

/-!
# Two peers and a transport that cuts as it likes

As in `Talk`, but what one end has written arrives at the other end in pieces that have nothing to do with the messages.
-/

namespace Verif
open Ucd
variable {U : Ucd}

/-- `a` says the messages one after the other: `write_str` and `flush` for each (`src/text_duplexer.rs:349-397`). -/
def saying (ms : List (List Char)) : List DOp := ms.flatMap fun m => [.op (.str m), .op .flush]

/-- Each piece is what one read of the inner stream of `b` gives; the number is the length of the buffer with which `b` then reads
(`src/text_duplexer.rs:228-240`). -/
def hears (U : Ucd) : Duplexer → List (List Char × Nat) → Duplexer × List DOut
  | b, [] => (b, [])
  | b, (s, len) :: ps =>
    let h := dstep U { b with src := b.src ++ [.data s .active] } (.read len)
    let r := hears U h.1 ps
    (r.1, h.2 :: r.2)

theorem split_boundary : ∀ T : List Char, ∃ P R, T = P ++ R ∧ (P = [] ∨ ∃ x b, P = x ++ [b] ∧ isBoundary b = true) ∧ ∀ c ∈ R, isBoundary c = false
  | [] => ⟨[], [], rfl, Or.inl rfl, by simp⟩
  | c :: T => by
    obtain ⟨P, R, rfl, hP, hR⟩ := split_boundary T
    rcases hP with rfl | ⟨x, b, rfl, hb⟩
    · cases hc : isBoundary c with
      | true => exact ⟨[c], R, rfl, Or.inr ⟨[], c, rfl, hc⟩, hR⟩
      | false =>
        refine ⟨[], c :: R, rfl, Or.inl rfl, fun d hd => ?_⟩
        rcases List.mem_cons.1 hd with rfl | hd
        · exact hc
        · exact hR d hd
    · exact ⟨c :: (x ++ [b]), R, rfl, Or.inr ⟨c :: x, b, rfl, hb⟩, hR⟩

/-- One read of a reader that holds back less than a line and whose inner stream gives another piece. -/
theorem read_piece {k k' : Ctl} {Q s d P R : List Char} (hQ : ∀ c ∈ Q, isBoundary c = false) (hp : processRaw U k s = (k', d)) (hd : Q ++ d = P ++ R)
    (hP : P = [] ∨ ∃ x b, P = x ++ [b] ∧ isBoundary b = true) (hR : ∀ c ∈ R, isBoundary c = false) (hn : normChain U P = P) {len : Nat}
    (hl : normalizationBufferSize ≤ len) (hlP : (encode P).length + 4 ≤ len) :
    readWithStatus U len { ctl := k, queue := Q, iter := [], quick := 0, pending := .active } [.data s .active] =
      { ret := .ok (encode P).length .active, out := P, input := { ctl := k', queue := R, iter := [], quick := 0, pending := .active }, src := [] } := by
  have hlen : P.length < len + 1 := by
    have : ∀ s : List Char, s.length ≤ (encode s).length := by
      intro s
      induction s with
      | nil => simp
      | cons c s ih => rw [encode_cons, List.length_append, encodeChar_length, List.length_cons]; have := utf8Len_pos c; omega
    have := this P
    omega
  unfold readWithStatus
  rw [if_neg (by omega), drain_still ⟨rfl, rfl, hQ⟩]
  simp only [ne_eq, not_true_eq_false, if_false, nextEvent, hp, List.nil_append, encode_nil, List.length_nil, Nat.sub_zero, hd]
  rw [drain_whole hP hR hn hlen hlP]

/-- The output half as a read leaves it. -/
theorem newline_idle {w : Writer} (h : WIdle w) (b : Bool) : WIdle (newline w b) := by
  unfold newline
  split
  · exact ⟨rfl, h.buffer, h.ansi, h.dead, h.script⟩
  · exact h

theorem processRaw_plain {k : Ctl} {s : List Char} (h : BOM ∉ s) : processRaw U k s = feed U { k with atStart := false } s := by
  unfold processRaw
  rw [if_neg]
  intro hb
  simp only [Bool.and_eq_true, beq_iff_eq] at hb
  cases s with
  | nil => simp at hb
  | cons c s => simp only [List.head?_cons, Option.some.injEq] at hb; exact h (by simp [hb.2])

theorem step_atStart {k : Ctl} (h : k.atStart = false) (c : Char) : (stepChar U k c).1.atStart = false := by
  unfold stepChar groundStep
  (repeat' split) <;> simp_all

theorem feed_start_false : ∀ (s : List Char) {k : Ctl}, k.atStart = false → (feed U k s).1.atStart = false
  | [], k, h => h
  | c :: s, k, h => by
    simp only [feed]
    exact feed_start_false s (step_atStart h c)

/-- All that came is heard, up to the last U+A or U+34F, whatever the pieces. -/
theorem hears_all (hU : TextLaws U) : ∀ (ps : List (List Char × Nat)) {k kE : Ctl} {Q D : List Char} {o : Writer}, WIdle o →
    (∀ c ∈ Q, isBoundary c = false) → BOM ∉ ps.flatMap (·.1) → feed U { k with atStart := false } (ps.flatMap (·.1)) = (kE, D) →
    U.isNfcStreamSafe (Q ++ D) = true → (∀ c ∈ Q ++ D, isAssigned U c = true) →
    (∀ p ∈ ps, normalizationBufferSize ≤ p.2 ∧ (encode (Q ++ D)).length + 4 ≤ p.2) →
    ∃ (outs : List (List Char)) (R : List Char) (k' : Ctl) (o' : Writer), (hears U { input := { ctl := k, queue := Q, iter := [], quick := 0, pending := .active }, src := [], output := o } ps) =
        ({ input := { ctl := k', queue := R, iter := [], quick := 0, pending := .active }, src := [], output := o' },
          outs.map fun t => .read (.ok (encode t).length .active) t) ∧
      outs.flatten ++ R = Q ++ D ∧ (∀ c ∈ R, isBoundary c = false) ∧ WIdle o' ∧ k'.state = kE.state
  | [], k, kE, Q, D, o, ho, hQ, _, hf, _, _, _ => by
    simp only [List.flatMap_nil, feed, Prod.mk.injEq] at hf
    obtain ⟨rfl, rfl⟩ := hf
    exact ⟨[], Q, k, o, rfl, by simp, hQ, ho, rfl⟩
  | (s, len) :: ps, k, kE, Q, D, o, ho, hQ, hb, hf, hn, ha, hl => by
    simp only [List.flatMap_cons, List.mem_append, not_or] at hb
    rw [List.flatMap_cons, feed_append] at hf
    generalize hs : feed U { k with atStart := false } s = kd at hf
    obtain ⟨k1, d⟩ := kd
    simp only [Prod.mk.injEq] at hf
    have hat : k1.atStart = false := by
      have := feed_start_false (U := U) s (k := { k with atStart := false }) rfl
      rw [hs] at this; exact this
    obtain ⟨P, R, hPR, hP, hR⟩ := split_boundary (Q ++ d)
    generalize hg : feed U k1 (ps.flatMap (·.1)) = kE' at hf
    obtain ⟨kE', D'⟩ := kE'
    obtain ⟨rfl, rfl⟩ := hf
    have hwhole : Q ++ (d ++ D') = P ++ (R ++ D') := by rw [← List.append_assoc, hPR, List.append_assoc]
    rw [hwhole] at hn ha hl
    have hnP : normChain U P = P := normChain_of_assigned hU (nss_prefix hU.law hn) (fun c hc => ha c (by simp [hc]))
    obtain ⟨hl1, hl2⟩ := hl (s, len) (by simp)
    rw [encode_append, List.length_append] at hl2
    have hread := read_piece (U := U) hQ ((processRaw_plain hb.1).trans hs) hPR hP hR hnP (len := len) hl1 (by simp only at hl2; omega)
    have hk1 : { k1 with atStart := false } = k1 := by cases k1; simp only at hat; subst hat; rfl
    obtain ⟨outs, R2, k2, o2, e2, f2, g2, i2, j2⟩ := hears_all hU ps (k := k1) (kE := kE') (Q := R) (D := D')
      (o := newline o (decide ((encode P).length ≠ 0) && (encode P)[(encode P).length - 1]? == some 10)) (newline_idle ho _) hR hb.2
      (by rw [hk1]; exact hg) (nss_suffix hU.law hn) (fun c hc => ha c (by rw [List.mem_append]; exact Or.inr hc))
      (fun p hp => ⟨(hl p (by simp [hp])).1, by
        have := (hl p (by simp [hp])).2
        rw [encode_append, List.length_append] at this
        omega⟩)
    refine ⟨P :: outs, R2, k2, o2, ?_, ?_, g2, i2, j2⟩
    · rw [hears]
      have e3 : dstep U { input := { ctl := k, queue := Q, iter := [], quick := 0, pending := .active }, src := [] ++ [.data s .active], output := o } (.read len) =
          ({ input := { ctl := k1, queue := R, iter := [], quick := 0, pending := .active }, src := [], output := newline o (decide ((encode P).length ≠ 0) && (encode P)[(encode P).length - 1]? == some 10) }, .read (.ok (encode P).length .active) P) := by
        simp only [dstep, Duplexer.read, Duplexer.source, ho.dead, Bool.false_eq_true, if_false, List.nil_append, hread]
      simp only [e3, e2, List.map_cons]
    · rw [List.flatten_cons, List.append_assoc, f2, hwhole]

/-- Saying whole lines leaves a speaker at rest, with all of it sent. -/
theorem says_all (hU : TextLaws U) : ∀ (ms : List (List Char)) {a : Duplexer}, AtRest a → (∀ m ∈ ms, Acceptable U m ∧ m.getLast? = some '\n') →
    dresults U a (saying ms) = (saying ms).map (fun _ => .op .ok) ∧ AtRest (drun U a (saying ms)) ∧
      (drun U a (saying ms)).output.crlf = a.output.crlf ∧
      (drun U a (saying ms)).output.sink.sent = a.output.sink.sent ++ enc a.output.crlf (ms.flatMap (normChain U))
  | [], a, ha, _ => ⟨rfl, ha, rfl, by cases a.output.crlf <;> simp [saying, drun, enc, toCrlf_nil]⟩
  | m :: ms, a, ha, h => by
    obtain ⟨hm, hl⟩ := h m (by simp)
    obtain ⟨ia, sa, oa⟩ := a
    have hgood : Good U oa.expectStarter (.str m) := ⟨hm.1, fun _ => head_normChain hU hm.2.1⟩
    have hw := ha.output
    have hstep := step_good hU (op := .str m) rfl hw.state hw.buffer hw.dead hw.script hgood
    have hgr : groundNext U .newline (.str m) = .newline := by
      rw [groundNext_newline]
      simp [groundAfter, (last_normChain_nl hU).2 hl]
    have e1 : dstep U { input := ia, src := sa, output := oa } (.op (.str m)) =
        ({ input := ia, src := sa, output := { oa with expectStarter := false, state := .ground .newline, sink := { oa.sink with sent := oa.sink.sent ++ enc oa.crlf (normChain U m) } } }, .op .ok) := by
      simp only [dstep]
      rw [hstep, hgr]
      rfl
    have e2 : dstep U { input := ia, src := sa, output := { oa with expectStarter := false, state := .ground .newline, sink := { oa.sink with sent := oa.sink.sent ++ enc oa.crlf (normChain U m) } } } (.op .flush) =
        ({ input := ia, src := sa, output := { oa with expectStarter := true, state := .ground .newline, sink := { oa.sink with sent := oa.sink.sent ++ enc oa.crlf (normChain U m) } } }, .op .ok) := by
      simp only [dstep, step]
      rw [flush_idle (w := { oa with expectStarter := false, state := .ground .newline, sink := { oa.sink with sent := oa.sink.sent ++ enc oa.crlf (normChain U m) } }) rfl (by simp) hw.dead hw.script]
    obtain ⟨i1, i2, i3, i4⟩ := says_all hU ms (a := { input := ia, src := sa, output := { oa with expectStarter := true, state := .ground .newline, sink := { oa.sink with sent := oa.sink.sent ++ enc oa.crlf (normChain U m) } } })
      ⟨ha.input, ha.src, ⟨rfl, hw.buffer, hw.ansi, hw.dead, hw.script⟩⟩ (fun m hm => h m (by simp [hm]))
    have hsay : saying (m :: ms) = .op (.str m) :: .op .flush :: saying ms := by simp [saying]
    rw [hsay]
    simp only [dresults, drun, List.map_cons, e1, e2, i1, true_and]
    refine ⟨i2, i3, ?_⟩
    rw [i4, List.flatMap_cons, enc_append, List.append_assoc]

theorem normChain_messages (hU : TextLaws U) : ∀ (ms : List (List Char)), (∀ m ∈ ms, m.getLast? = some '\n') →
    normChain U ms.flatten = ms.flatMap (normChain U)
  | [], _ => rfl
  | m :: ms, h => by
    obtain ⟨x, hx⟩ := List.getLast?_eq_some_iff.1 (h m (by simp))
    rw [List.flatten_cons, List.flatMap_cons, ← normChain_messages hU ms (fun m hm => h m (by simp [hm])), hx, normChain_nl hU x, List.append_assoc, List.append_assoc,
      List.singleton_append, List.singleton_append, normChain_split hU (inert_lf hU) (nl_assigned hU) (by decide)]

theorem acceptable_messages : ∀ (ms : List (List Char)), (∀ m ∈ ms, Acceptable U m ∧ m.getLast? = some '\n') →
    Acceptable U ms.flatten ∧ (ms.flatten = [] ∨ ms.flatten.getLast? = some '\n')
  | [], _ => by simp [Acceptable]
  | m :: ms, h => by
    obtain ⟨⟨h1, h2, h3⟩, h4⟩ := h m (by simp)
    obtain ⟨⟨g1, g2, g3⟩, g4⟩ := acceptable_messages ms (fun m hm => h m (by simp [hm]))
    have hne : m ≠ [] := by rintro rfl; simp at h4
    have hl : (m ++ ms.flatten).getLast? = some '\n' := by
      rcases g4 with g | g
      · rw [g, List.append_nil]; exact h4
      · rw [List.getLast?_append, g]; rfl
    rw [List.flatten_cons]
    refine ⟨⟨fun c hc => ?_, fun c hc => ?_, fun c hc => ?_⟩, Or.inr hl⟩
    · rcases List.mem_append.1 hc with hc | hc
      · exact h1 c hc
      · exact g1 c hc
    · obtain ⟨d, m, rfl⟩ := List.exists_cons_of_ne_nil hne
      exact h2 c (by simpa using hc)
    · rw [hl] at hc
      obtain rfl := Option.some.inj hc
      exact h3 _ h4

theorem enc_bom {T : List Char} (h : ∀ c ∈ T, okChar c = true) (cr : Bool) : BOM ∉ enc cr T := by
  have h' : BOM ∉ T := fun hb => (ok_not_special (h _ hb)).2.2.2.2.2.2 rfl
  cases cr with
  | false => exact h'
  | true =>
    simp only [enc, if_true]
    intro hb
    simp only [toCrlf, List.mem_flatMap] at hb
    obtain ⟨c, hc, hb⟩ := hb
    split at hb
    · simp [BOM] at hb
    · simp only [List.mem_singleton] at hb
      exact h' (hb ▸ hc)

/-- What the pieces bring, heard in a listener at rest. -/
theorem pieces_heard (hU : TextLaws U) {b : Duplexer} (hb : AtRest b) {T : List Char} (hT : isBasicText U T = true) (ha : ∀ c ∈ T, isAssigned U c = true)
    {cr : Bool} {ps qs : List (List Char × Nat)} (hp : (ps ++ qs).flatMap (·.1) = enc cr T)
    (hl : ∀ p ∈ ps, normalizationBufferSize ≤ p.2 ∧ (encode T).length + 4 ≤ p.2) :
    ∃ (outs : List (List Char)) (R D : List Char), (hears U b ps).2 = (outs.map fun t => .read (.ok (encode t).length .active) t) ∧ outs.flatten ++ R = D ∧
      (∀ c ∈ R, isBoundary c = false) ∧ D <+: T ∧ (∀ T', ps.flatMap (·.1) = enc cr T' → (∀ c ∈ T', okChar c = true) → D = T') ∧
      (ps.flatMap (·.1) = enc cr T → (T = [] ∨ T.getLast? = some '\n') → AtRest (hears U b ps).1) := by
  obtain ⟨⟨k, q, it, qu, pe⟩, sb, ob⟩ := b
  obtain ⟨⟨b1, b2, b3, b4, b5⟩, b6, b7⟩ := hb
  simp only at b1 b2 b3 b4 b5 b6
  subst b2 b3 b4 b5 b6
  obtain ⟨v1, v2, v3⟩ := text_iff.1 hT
  obtain ⟨v4, v5⟩ := substr_iff.1 v3
  have hbom := enc_bom v4 cr
  have hF : Follows { k with atStart := false } [] := ⟨by simpa using b1, fun _ => rfl⟩
  have hfeed : ∀ T', BOM ∉ enc cr T' → (∀ c ∈ T', okChar c = true) → (∀ c ∈ T'.head?, isStart U c = true) →
      ∃ k', feed U { k with atStart := false } (enc cr T') = (k', T') ∧ Follows k' T' := by
    intro T' hb' hok hst
    obtain ⟨k', e1, e2⟩ := processRaw_enc (U := U) cr hF hok (fun _ => hst)
    rw [processRaw_plain hb'] at e1
    exact ⟨k', e1, by simpa using e2⟩
  obtain ⟨kT, eT, fT⟩ := hfeed T hbom v4 v1
  rw [← hp, List.flatMap_append, feed_append] at eT
  rw [← hp, List.flatMap_append, List.mem_append, not_or] at hbom
  generalize hs : feed U { k with atStart := false } (ps.flatMap (·.1)) = kd at eT
  obtain ⟨k1, D⟩ := kd
  simp only [Prod.mk.injEq] at eT
  have hDT : D <+: T := ⟨_, eT.2⟩
  have hn : U.isNfcStreamSafe ([] ++ D) = true := by
    obtain ⟨z, rfl⟩ := hDT
    exact nss_prefix hU.law v5
  have hlen : (encode D).length ≤ (encode T).length := by
    obtain ⟨z, rfl⟩ := hDT
    rw [encode_append, List.length_append]; omega
  obtain ⟨outs, R, k', o', e, f, g, i, j⟩ := hears_all hU ps (k := k) (kE := k1) (Q := []) (D := D) (o := ob) b7 (by simp) hbom.1 hs hn
    (fun c hc => ha c (hDT.subset (by simpa using hc))) (fun p hp => ⟨(hl p hp).1, by simp only [List.nil_append]; have := (hl p hp).2; omega⟩)
  have hdet : ∀ T', ps.flatMap (·.1) = enc cr T' → (∀ c ∈ T', okChar c = true) → D = T' ∧ Follows k1 T' := by
    intro T' h1 h2
    have hst : ∀ c ∈ T'.head?, isStart U c = true := by
      intro c hc
      obtain ⟨T', rfl⟩ : ∃ t, T' = c :: t := by
        cases T' with
        | nil => simp at hc
        | cons d t => simp at hc; exact ⟨t, by rw [hc]⟩
      by_cases hcn : c = '\n'
      · subst hcn; exact hU.start_ascii '\n' (by decide)
      · refine v1 c ?_
        rw [List.flatMap_append, h1] at hp
        cases T with
        | nil => cases cr <;> simp [enc, toCrlf] at hp; split at hp <;> simp at hp
        | cons d T =>
          cases cr with
          | false => simp [enc] at hp; simp [hp.1]
          | true =>
            simp only [enc, if_true] at hp
            rw [toCrlf_other hcn] at hp
            by_cases hd : d = '\n'
            · subst hd; rw [toCrlf_nl] at hp
              simp only [List.cons_append, List.cons.injEq] at hp
              exact absurd hp.1 (ok_not_special (h2 c (by simp))).1
            · rw [toCrlf_other hd] at hp
              simp only [List.cons_append, List.cons.injEq] at hp
              simp [hp.1]
    obtain ⟨k2, e2, f2⟩ := hfeed T' (by rw [← h1]; exact hbom.1) h2 hst
    rw [← h1, hs] at e2
    simp only [Prod.mk.injEq] at e2
    obtain ⟨rfl, rfl⟩ := e2
    exact ⟨rfl, f2⟩
  refine ⟨outs, R, D, by rw [e], by simpa using f, g, hDT, fun T' h1 h2 => (hdet T' h1 h2).1, fun h1 h2 => ?_⟩
  obtain ⟨hD, hfol⟩ := hdet T h1 v4
  subst hD
  have hR : R = [] := by
    rcases List.eq_nil_or_concat R with rfl | ⟨R, c, rfl⟩
    · rfl
    · exfalso
      rw [List.concat_eq_append] at f g
      rw [List.nil_append] at f
      rcases h2 with h2 | h2
      · rw [h2] at f; simp at f
      · rw [← f, ← List.append_assoc, List.getLast?_concat] at h2
        have := g c (by simp)
        simp at h2; subst h2; simp [isBoundary] at this
  subst hR
  rw [e]
  exact ⟨⟨by simp only; rw [j, hfol.1]; simp [h2], rfl, rfl, rfl, rfl⟩, rfl, i⟩

end Verif
