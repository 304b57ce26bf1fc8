import Verif.Talk
import Verif.TalkPieces
import Verif.Props.Strings

/-!
# C132: dialogues between two duplexers
-/

namespace Verif
open Ucd

/-- What the messages of `ts` are heard as, if each is heard at once and complete: `f` says what `TextString::from_text` makes of
each. -/
def Spec.heard (f : List Char → List Char) (ts : List Turn) : List (DOut × DOut × DOut) :=
  ts.map fun t => (.op .ok, .op .ok, .read (.ok (encode (f t.msg)).length t.status) (f t.msg))

theorem talk_lines {f : List Char → List Char} : ∀ (ts : List Turn) {a b : Duplexer}, AtRest a → AtRest b →
    (∀ t ∈ ts, fromTextOwned ucd15 (isBasicText ucd15) t.msg = .ok (f t.msg) ∧ t.msg.getLast? = some '\n' ∧ t.status ≠ .end_ ∧
      normalizationBufferSize ≤ t.len ∧ (encode (f t.msg)).length + 4 ≤ t.len) →
    (talk ucd15 a b ts).2 = Spec.heard f ts ∧ AtRest (talk ucd15 a b ts).1.1 ∧ AtRest (talk ucd15 a b ts).1.2
  | [], a, b, ha, hb, _ => ⟨rfl, ha, hb⟩
  | t :: ts, a, b, ha, hb, h => by
    obtain ⟨h1, h2, h3, h4, h5⟩ := h t (by simp)
    obtain ⟨g1, g2⟩ := (owned_ok_iff isBasicText_nil).1 h1
    have hl : (f t.msg).getLast? = some '\n' := by rw [g2]; exact (last_normChain_nl textLaws15).2 h2
    have hP : f t.msg = [] ∨ ∃ x b, f t.msg = x ++ [b] ∧ isBoundary b = true := by
      obtain ⟨x, hx⟩ := List.getLast?_eq_some_iff.1 hl
      exact Or.inr ⟨x, '\n', hx, rfl⟩
    have key : ∀ {a b : Duplexer}, AtRest a → AtRest b → _ := fun {a b} ha hb =>
      tell_text textLaws15 (a := a) (b := b) ha hb g1 (P := f t.msg) (R := []) (by rw [g2]; simp) h3 h4 h5 hP (by simp)
    rw [talk]
    split
    · obtain ⟨k1, k2⟩ := key ha hb
      obtain ⟨k3, k4⟩ := k2 rfl (Or.inr hl)
      obtain ⟨i1, i2⟩ := talk_lines ts k3 k4 (fun t ht => h t (by simp [ht]))
      refine ⟨?_, i2⟩
      show _ :: _ = _ :: _
      rw [i1, k1]
      rfl
    · obtain ⟨k1, k2⟩ := key hb ha
      obtain ⟨k3, k4⟩ := k2 rfl (Or.inr hl)
      obtain ⟨i1, i2⟩ := talk_lines ts k4 k3 (fun t ht => h t (by simp [ht]))
      refine ⟨?_, i2⟩
      show _ :: _ = _ :: _
      rw [i1, k1]
      rfl

/-- A new duplexer of either newline form on an inner stream that takes everything and from which nothing has been read. -/
def NewPeer (d : Duplexer) : Prop :=
  ∃ nel lsps sent, d = .make nel lsps [] (.new { sent, dead := false, script := [] }) ∨
    d = .make nel lsps [] (.newCrlf { sent, dead := false, script := [] })

theorem NewPeer.rest {d : Duplexer} (h : NewPeer d) : AtRest d := by
  obtain ⟨nel, lsps, sent, rfl | rfl⟩ := h
  · exact ⟨⟨rfl, rfl, rfl, rfl, rfl⟩, rfl, idle_new rfl rfl⟩
  · exact ⟨⟨rfl, rfl, rfl, rfl, rfl⟩, rfl, idle_crlf rfl rfl⟩

/-- C132: in a dialogue of whole lines between two duplexers, in whatever order they speak, every message is heard at the next read of
the other end, complete, as `TextString::from_text` makes it, and at the end both ends can be closed and dropped. -/
theorem c132_lines_partial (f : List Char → List Char) (ts : List Turn) (a b : Duplexer) (ha : NewPeer a) (hb : NewPeer b)
    (h : ∀ t ∈ ts, fromTextOwned ucd15 (isBasicText ucd15) t.msg = .ok (f t.msg) ∧ t.msg.getLast? = some '\n' ∧ t.status ≠ .end_ ∧
      normalizationBufferSize ≤ t.len ∧ (encode (f t.msg)).length + 4 ≤ t.len) :
    (talk ucd15 a b ts).2 = Spec.heard f ts ∧ ∀ d, d = (talk ucd15 a b ts).1.1 ∨ d = (talk ucd15 a b ts).1.2 →
      (dstep ucd15 d (.op .close)).2 = .op .ok ∧ dropPanics d.output = false ∧ d.input.abandon.isSome = true := by
  obtain ⟨h1, h2, h3⟩ := talk_lines ts ha.rest hb.rest h
  have key : ∀ d, AtRest d → (dstep ucd15 d (.op .close)).2 = .op .ok ∧ dropPanics d.output = false ∧ d.input.abandon.isSome = true := by
    intro d hd
    refine ⟨?_, by simp [dropPanics, hd.output.state], ?_⟩
    · show DOut.op (close d.output).2 = _
      rw [(close_idle hd.output).1]
    · simp [TextInput.abandon, hd.input.iter, hd.input.quick, hd.input.queue]
  refine ⟨h1, fun d hd => ?_⟩
  rcases hd with rfl | rfl
  · exact key _ h2
  · exact key _ h3

/-- What is heard at once of any message that `TextString::from_text` accepts, said between lines: the part up to its last U+A or U+34F. -/
theorem c132_heard (a b : Duplexer) (ha : AtRest a) (hb : AtRest b) (m P R : List Char)
    (hm : fromTextOwned ucd15 (isBasicText ucd15) m = .ok (P ++ R)) (hP : P = [] ∨ P.getLast? = some '\n' ∨ P.getLast? = some CGJ)
    (hR : '\n' ∉ R ∧ CGJ ∉ R) (status : Status) (hs : status ≠ .end_) (len : Nat) (hl : normalizationBufferSize ≤ len)
    (hlP : (encode P).length + 4 ≤ len) :
    (tell ucd15 a b m status len).2 = (.op .ok, .op .ok, .read (.ok (encode P).length status) P) := by
  obtain ⟨g1, g2⟩ := (owned_ok_iff isBasicText_nil).1 hm
  refine (tell_text textLaws15 ha hb g1 g2.symm hs hl hlP ?_ ?_).1
  · rcases hP with h | h | h
    · exact Or.inl h
    · obtain ⟨x, hx⟩ := List.getLast?_eq_some_iff.1 h
      exact Or.inr ⟨x, _, hx, rfl⟩
    · obtain ⟨x, hx⟩ := List.getLast?_eq_some_iff.1 h
      exact Or.inr ⟨x, _, hx, rfl⟩
  · intro c hc
    have h1 : c ≠ '\n' := fun e => hR.1 (e ▸ hc)
    have h2 : c ≠ CGJ := fun e => hR.2 (e ▸ hc)
    simp [isBoundary, h1, h2]

theorem heard_parts : ∀ T : List Char, ∃ P R, T = P ++ R ∧ (P = [] ∨ P.getLast? = some '\n' ∨ P.getLast? = some CGJ) ∧ '\n' ∉ R ∧ CGJ ∉ R
  | [] => ⟨[], [], rfl, Or.inl rfl, by simp⟩
  | c :: T => by
    obtain ⟨P, R, rfl, hP, hR⟩ := heard_parts T
    cases P with
    | cons d P => exact ⟨c :: d :: P, R, rfl, by simpa using hP, hR⟩
    | nil =>
      by_cases h1 : c = '\n'
      · exact ⟨[c], R, rfl, by simp [h1], hR⟩
      by_cases h2 : c = CGJ
      · exact ⟨[c], R, rfl, by simp [h2], hR⟩
      refine ⟨[], c :: R, rfl, Or.inl rfl, ?_, ?_⟩
      · simp only [List.mem_cons, not_or]; exact ⟨Ne.symm h1, hR.1⟩
      · simp only [List.mem_cons, not_or]; exact ⟨Ne.symm h2, hR.2⟩

/-- A message is heard at once as a whole if and only if it is empty or, as `TextString::from_text` makes it, ends with U+A or U+34F. -/
theorem c132_heard_iff (a b : Duplexer) (ha : AtRest a) (hb : AtRest b) (m T : List Char)
    (hm : fromTextOwned ucd15 (isBasicText ucd15) m = .ok T) (status : Status) (hs : status ≠ .end_) (len : Nat)
    (hl : normalizationBufferSize ≤ len) (hlT : (encode T).length + 4 ≤ len) :
    (∃ n, (tell ucd15 a b m status len).2 = (.op .ok, .op .ok, .read (.ok n status) T)) ↔
      T = [] ∨ T.getLast? = some '\n' ∨ T.getLast? = some CGJ := by
  obtain ⟨P, R, rfl, hP, hR⟩ : ∃ P R, T = P ++ R ∧ (P = [] ∨ P.getLast? = some '\n' ∨ P.getLast? = some CGJ) ∧ '\n' ∉ R ∧ CGJ ∉ R := by
    exact heard_parts T
  rw [c132_heard a b ha hb m P R hm hP hR status hs len hl (by rw [encode_append, List.length_append] at hlT; omega)]
  constructor
  · rintro ⟨n, h⟩
    simp only [Prod.mk.injEq, DOut.read.injEq, true_and] at h
    have hr : R = [] := by simpa using h.2
    subst hr
    simpa using hP
  · intro h
    have hr : R = [] := by
      rcases List.eq_nil_or_concat R with rfl | ⟨R, c, rfl⟩
      · rfl
      · rw [List.concat_eq_append] at h hR
        rw [← List.append_assoc, List.getLast?_concat] at h
        rcases h with h | h | h
        · simp at h
        · simp at h; subst h; simp at hR
        · simp at h; subst h; simp at hR
    subst hr
    exact ⟨_, by rw [List.append_nil]⟩

/-- Not every message is heard: a prompt, written and flushed, stays in the reader of the other end, which has nothing to answer to. -/
theorem c132_refuted_prompt : ∃ a b m, NewPeer a ∧ NewPeer b ∧ fromTextOwned ucd15 (isBasicText ucd15) m = .ok m ∧
    (tell ucd15 a b m .push 4096).2 = (.op .ok, .op .ok, .read (.ok 0 .push) []) :=
  ⟨.make false false [] (.new { sent := [], dead := false, script := [] }), .make false false [] (.new { sent := [], dead := false, script := [] }),
    ['n', '?', ' '], ⟨_, _, _, Or.inl rfl⟩, ⟨_, _, _, Or.inl rfl⟩, by decide +kernel, by decide +kernel⟩

/-- Sending a U+34F after the prompt has it heard. -/
example : (tell ucd15 (.make false false [] (.new { sent := [], dead := false, script := [] }))
    (.make false false [] (.new { sent := [], dead := false, script := [] })) ['n', '?', ' ', CGJ] .push 4096).2.2.2 =
      .read (.ok 5 .push) ['n', '?', ' ', CGJ] := by decide +kernel

/-- A dialogue that meets the hypotheses, in which what is heard is not what was given to `write_str`. -/
example : let a := Duplexer.make false false [] (.newCrlf { sent := [], dead := false, script := [] })
    let b := Duplexer.make true true [] (.new { sent := ['x', '\n'], dead := false, script := [] })
    let ts : List Turn := [⟨true, ['h', 'o', '\n'], .push, 136⟩, ⟨false, ['e', '\u0301', '\n'], .active, 200⟩, ⟨true, ['o', 'k', '\n', '\n'], .active, 136⟩]
    (talk ucd15 a b ts).2.map (·.2.2) = [.read (.ok 3 .push) ['h', 'o', '\n'], .read (.ok 3 .active) ['\u00e9', '\n'], .read (.ok 4 .active) ['o', 'k', '\n', '\n']] ∧
    ∀ t ∈ ts, fromTextOwned ucd15 (isBasicText ucd15) t.msg = .ok (if t.len = 200 then ['\u00e9', '\n'] else t.msg) ∧
      t.msg.getLast? = some '\n' ∧ t.status ≠ .end_ ∧ normalizationBufferSize ≤ t.len ∧
      (encode (if t.len = 200 then ['\u00e9', '\n'] else t.msg)).length + 4 ≤ t.len := by decide +kernel

/-- C132 without the assumption that the transport keeps messages in one piece: one end says whole lines, and what it has sent arrives
in any pieces (cut inside a line, between CR and LF, or several messages at once).  Then every call succeeds, the reads of the other end, one
for each piece, return all of it in turn, and both ends are between lines again.  (The scalars are assigned ones, see `c132_refuted_cut`.) -/
theorem c132_pieces (f : List Char → List Char) (ms : List (List Char)) (a b : Duplexer) (ha : AtRest a) (hb : AtRest b)
    (h : ∀ m ∈ ms, fromTextOwned ucd15 (isBasicText ucd15) m = .ok (f m) ∧ m.getLast? = some '\n' ∧ ∀ c ∈ m, isAssigned ucd15 c = true)
    (ps : List (List Char × Nat)) (hp : a.output.sink.sent ++ ps.flatMap (·.1) = (drun ucd15 a (saying ms)).output.sink.sent)
    (hl : ∀ p ∈ ps, normalizationBufferSize ≤ p.2 ∧ (encode (ms.flatMap f)).length + 4 ≤ p.2) :
    (∀ r ∈ dresults ucd15 a (saying ms), r = .op .ok) ∧
    (∃ outs : List (List Char), (hears ucd15 b ps).2 = (outs.map fun t => .read (.ok (encode t).length .active) t) ∧ outs.flatten = ms.flatMap f) ∧
    AtRest (drun ucd15 a (saying ms)) ∧ AtRest (hears ucd15 b ps).1 := by
  have hacc : ∀ m ∈ ms, Acceptable ucd15 m ∧ m.getLast? = some '\n' := fun m hm => ⟨((owned_ok_iff isBasicText_nil).1 (h m hm).1).1, (h m hm).2.1⟩
  have hf : ms.flatMap f = normChain ucd15 ms.flatten := by
    rw [normChain_messages textLaws15 ms (fun m hm => (h m hm).2.1)]
    clear hp hl hacc
    induction ms with
    | nil => rfl
    | cons m ms ih =>
      rw [List.flatMap_cons, List.flatMap_cons, ih (fun m hm => h m (by simp [hm])), ((owned_ok_iff isBasicText_nil).1 (h m (by simp)).1).2]
  obtain ⟨s1, s2, -, s4⟩ := says_all textLaws15 ms ha hacc
  obtain ⟨m1, m2⟩ := acceptable_messages ms hacc
  rw [s4, ← normChain_messages textLaws15 ms (fun m hm => (h m hm).2.1), ← hf] at hp
  have hp := List.append_cancel_left hp
  have hend : ms.flatMap f = [] ∨ (ms.flatMap f).getLast? = some '\n' := by
    rw [hf]
    rcases m2 with m2 | m2
    · rw [m2]; exact Or.inl rfl
    · exact Or.inr ((last_normChain_nl textLaws15).2 m2)
  have hv : isBasicText ucd15 (ms.flatMap f) = true := by rw [hf]; exact normChain_valid textLaws15 m1
  have has : ∀ c ∈ ms.flatMap f, isAssigned ucd15 c = true := by
    rw [hf]
    refine assigned_normChain textLaws15 fun c hc => ?_
    obtain ⟨m, hm, hc⟩ := List.mem_flatten.1 hc
    exact (h m hm).2.2 c hc
  obtain ⟨outs, R, D, g1, g2, g3, -, g5, g6⟩ := pieces_heard textLaws15 hb hv has (ps := ps) (qs := []) (by rw [List.append_nil]; exact hp) hl
  have hok := (substr_iff.1 (text_iff.1 hv).2.2).1
  have hD := g5 _ hp hok
  refine ⟨fun r hr => ?_, ⟨outs, g1, ?_⟩, s2, g6 hp hend⟩
  · rw [s1] at hr
    obtain ⟨o, -, rfl⟩ := List.mem_map.1 hr
    rfl
  · subst hD
    rcases List.eq_nil_or_concat R with rfl | ⟨R, c, rfl⟩
    · rw [← g2, List.append_nil]
    · exfalso
      rw [List.concat_eq_append] at g2 g3
      rcases hend with he | he
      · rw [he] at g2; simp at g2
      · rw [← g2, ← List.append_assoc, List.getLast?_concat] at he
        have := g3 c (by simp)
        simp at he; subst he; simp [isBoundary] at this

/-- And no line is kept waiting for the rest: whenever some of the pieces have arrived and bring the text `T'` (in the newline form of the speaker), the
reads so far have returned all of `T'` except what follows its last newline, at most. -/
theorem c132_pieces_prompt (f : List Char → List Char) (ms : List (List Char)) (a b : Duplexer) (ha : AtRest a) (hb : AtRest b)
    (h : ∀ m ∈ ms, fromTextOwned ucd15 (isBasicText ucd15) m = .ok (f m) ∧ m.getLast? = some '\n' ∧ ∀ c ∈ m, isAssigned ucd15 c = true)
    (ps qs : List (List Char × Nat)) (hp : a.output.sink.sent ++ (ps ++ qs).flatMap (·.1) = (drun ucd15 a (saying ms)).output.sink.sent)
    (hl : ∀ p ∈ ps, normalizationBufferSize ≤ p.2 ∧ (encode (ms.flatMap f)).length + 4 ≤ p.2) (T' : List Char) (hT : T' <+: ms.flatMap f)
    (hps : ps.flatMap (·.1) = if a.output.crlf then toCrlf T' else T') :
    ∃ (outs : List (List Char)) (R : List Char), (hears ucd15 b ps).2 = (outs.map fun t => .read (.ok (encode t).length .active) t) ∧
      T' = outs.flatten ++ R ∧ '\n' ∉ R := by
  have hacc : ∀ m ∈ ms, Acceptable ucd15 m ∧ m.getLast? = some '\n' := fun m hm => ⟨((owned_ok_iff isBasicText_nil).1 (h m hm).1).1, (h m hm).2.1⟩
  have hf : ms.flatMap f = normChain ucd15 ms.flatten := by
    rw [normChain_messages textLaws15 ms (fun m hm => (h m hm).2.1)]
    clear hp hl hacc hT
    induction ms with
    | nil => rfl
    | cons m ms ih =>
      rw [List.flatMap_cons, List.flatMap_cons, ih (fun m hm => h m (by simp [hm])), ((owned_ok_iff isBasicText_nil).1 (h m (by simp)).1).2]
  obtain ⟨s1, s2, -, s4⟩ := says_all textLaws15 ms ha hacc
  obtain ⟨m1, m2⟩ := acceptable_messages ms hacc
  rw [s4, ← normChain_messages textLaws15 ms (fun m hm => (h m hm).2.1), ← hf] at hp
  have hp := List.append_cancel_left hp
  have hv : isBasicText ucd15 (ms.flatMap f) = true := by rw [hf]; exact normChain_valid textLaws15 m1
  have has : ∀ c ∈ ms.flatMap f, isAssigned ucd15 c = true := by
    rw [hf]
    refine assigned_normChain textLaws15 fun c hc => ?_
    obtain ⟨m, hm, hc⟩ := List.mem_flatten.1 hc
    exact (h m hm).2.2 c hc
  obtain ⟨outs, R, D, g1, g2, g3, -, g5, -⟩ := pieces_heard textLaws15 hb hv has hp hl
  have hok := (substr_iff.1 (text_iff.1 hv).2.2).1
  refine ⟨outs, R, g1, by rw [g2]; exact (g5 T' hps fun c hc => hok c (hT.subset hc)).symm, fun hn => ?_⟩
  have := g3 _ hn
  simp [isBoundary] at this

/-- With an unassigned scalar (here U+378) the pieces do matter: a cut behind it, or before it, has a U+34F added that was not said. -/
theorem c132_refuted_cut : ∃ a b, AtRest a ∧ AtRest b ∧
    fromTextOwned ucd15 (isBasicText ucd15) ['a', '͸', '\n'] = .ok ['a', CGJ, '͸', CGJ, '\n'] ∧
    (drun ucd15 a (saying [['a', '͸', '\n']])).output.sink.sent = ['a', CGJ, '͸', CGJ, '\n'] ∧
    (hears ucd15 b [(['a', CGJ], 136), (['͸', CGJ, '\n'], 136)]).2 = [.read (.ok 3 .active) ['a', CGJ], .read (.ok 7 .active) [CGJ, '͸', CGJ, '\n']] ∧
    (hears ucd15 b [(['a', CGJ, '͸'], 136), ([CGJ, '\n'], 136)]).2 = [.read (.ok 3 .active) ['a', CGJ], .read (.ok 7 .active) [CGJ, '͸', CGJ, '\n']] ∧
    (hears ucd15 b [(['a'], 136), ([CGJ, '͸', CGJ, '\n'], 136)]).2 = [.read (.ok 0 .active) [], .read (.ok 8 .active) ['a', CGJ, '͸', CGJ, '\n']] :=
  ⟨.make false false [] (.new { sent := [], dead := false, script := [] }), .make false false [] (.new { sent := [], dead := false, script := [] }),
    NewPeer.rest ⟨_, _, _, Or.inl rfl⟩, NewPeer.rest ⟨_, _, _, Or.inl rfl⟩, by decide +kernel, by decide +kernel, by decide +kernel, by decide +kernel, by decide +kernel⟩

/-- Two messages with CR LF, in three pieces, one of them ending between CR and LF. -/
example : let a := Duplexer.make false false [] (.newCrlf { sent := ['x'], dead := false, script := [] })
    let b := Duplexer.make true true [] (.new { sent := [], dead := false, script := [] })
    let ms := [['h', 'o', '\n'], ['e', '\u0301', '\n', 'b', '\n']]
    let ps := [(['h', 'o', '\r'], 136), (['\n', '\u00e9', '\r', '\n', 'b'], 136), (['\r', '\n'], 136)]
    (a.output.sink.sent ++ ps.flatMap (·.1) = (drun ucd15 a (saying ms)).output.sink.sent) ∧
    (hears ucd15 b ps).2 = [.read (.ok 0 .active) [], .read (.ok 6 .active) ['h', 'o', '\n', '\u00e9', '\n'], .read (.ok 2 .active) ['b', '\n']] ∧
    ∀ m ∈ ms, fromTextOwned ucd15 (isBasicText ucd15) m = .ok (if m.length = 3 then m else ['\u00e9', '\n', 'b', '\n']) ∧ m.getLast? = some '\n' ∧
      ∀ c ∈ m, isAssigned ucd15 c = true := by decide +kernel

end Verif
