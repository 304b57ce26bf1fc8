import Verif.Copy
import Verif.HeadTheory
import Verif.Props.CutAdds
import Verif.Props.Pieces

/-!
# Exactly when pieces are as good as the whole (C74, C75, C77)
-/

namespace Verif
open Ucd Spec
variable {U : Ucd}

/-! ## Writing -/

/-- A writer between two writes, over a sink that does not fail; color off. -/
structure WBetween (w : Writer) : Prop where
  state : ∃ g, w.state = .ground g
  buffer : w.buffer = []
  ansi : w.ansi = false
  dead : w.sink.dead = false
  script : w.sink.script = []

theorem WIdle.between {w : Writer} (h : WIdle w) : WBetween w := ⟨⟨_, h.state⟩, h.buffer, h.ansi, h.dead, h.script⟩

/-- Is the string accepted by itself? -/
def Accepts (U : Ucd) (expect : Bool) (s : List Char) : Prop :=
  (∀ c ∈ s, okChar c = true) ∧ (expect = true → ∀ c ∈ s.head?, isStart U c = true)

theorem good_iff (hU : TextLaws U) (hS : StartLaws U) {e : Bool} {s : List Char} : Good U e (.str s) ↔ Accepts U e s := by
  constructor
  · rintro ⟨h1, h2⟩
    exact ⟨h1, fun he => head_normChain_conv hU hS (fun c hc => h2 he c hc)⟩
  · rintro ⟨h1, h2⟩
    exact ⟨h1, fun he c hc => head_normChain hU (h2 he) c hc⟩

theorem head?_front {s t : List Char} (h : s ≠ []) : (s ++ t).head? = s.head? := by
  cases s with
  | nil => exact absurd rfl h
  | cons => rfl

/-- The writer after everything has been accepted. -/
def after (w : Writer) (g : Ground) (out : List Char) : Writer :=
  { w with expectStarter := false, state := .ground (groundFrom g out), sink := { w.sink with sent := w.sink.sent ++ enc w.crlf out } }

theorem write_accepted (hU : TextLaws U) (hS : StartLaws U) {w : Writer} (hw : WBetween w) {g : Ground} (hg : w.state = .ground g) {s : List Char} :
    (Accepts U w.expectStarter s → writeStr U w s = (after w g (normChain U s), .ok)) ∧
    (¬ Accepts U w.expectStarter s → (writeStr U w s).2 = .err) := by
  rw [← good_iff hU hS]
  exact ⟨step_good hU (op := .str s) rfl hg hw.buffer hw.dead hw.script, fun h => (step_bad hU (op := .str s) rfl hg hw.ansi hw.buffer h).1⟩

theorem fmt_accepted (hU : TextLaws U) (hS : StartLaws U) : ∀ (pieces : List (List Char)) {w : Writer} (_ : WBetween w) {g : Ground} (_ : w.state = .ground g),
    (Accepts U w.expectStarter pieces.flatten → writeFmt U w pieces = some (if pieces.flatten = [] then w else after w g (pieces.flatMap (normChain U)), .ok)) ∧
    (¬ Accepts U w.expectStarter pieces.flatten → ∃ w', writeFmt U w pieces = some (w', .err)) := by
  intro pieces
  induction pieces with
  | nil => intro w hw g hg; exact ⟨fun _ => rfl, fun h => absurd (by simp [Accepts]) h⟩
  | cons s pieces ih =>
    intro w hw g hg
    by_cases hs : s = []
    · subst hs
      simpa [writeFmt, writeChunks, writeAll_nil, encode_nil, normChain_nil] using ih hw hg
    · have hcons : ∀ w' o, writeStr U w s = (w', o) → writeFmt U w (s :: pieces) = (match o with | .ok => writeFmt U w' pieces | o => some (w', o)) := by
        intro w' o h
        simp only [writeFmt, List.map_cons, writeChunks, writeAll_encode w hs, h]
        cases o <;> rfl
      obtain ⟨h1, h2⟩ := write_accepted hU hS hw hg (s := s)
      have hne : (s :: pieces).flatten ≠ [] := by simp [hs]
      by_cases ha : Accepts U w.expectStarter s
      · have hw' : WBetween (after w g (normChain U s)) := ⟨⟨_, rfl⟩, hw.buffer, hw.ansi, hw.dead, hw.script⟩
        obtain ⟨i1, i2⟩ := ih hw' rfl
        rw [hcons _ _ (h1 ha)]
        have hacc : Accepts U w.expectStarter (s :: pieces).flatten ↔ Accepts U (after w g (normChain U s)).expectStarter pieces.flatten := by
          constructor
          · intro h
            exact ⟨fun c hc => h.1 c (by simp [hc]), fun he => by simp [after] at he⟩
          · intro h
            refine ⟨fun c hc => ?_, fun he c hc => ha.2 he c ?_⟩
            · rw [List.flatten_cons, List.mem_append] at hc
              exact hc.elim (ha.1 c) (h.1 c)
            · rw [List.flatten_cons, head?_front hs] at hc
              exact hc
        rw [if_neg hne, hacc]
        refine ⟨fun h => ?_, i2⟩
        simp only
        rw [i1 h]
        by_cases hf : pieces.flatten = []
        · rw [if_pos hf]
          have : pieces.flatMap (normChain U) = [] := by
            rw [List.flatMap_eq_nil_iff]
            intro x hx
            rw [List.flatten_eq_nil_iff.1 hf x hx, normChain_nil]
          rw [List.flatMap_cons, this, List.append_nil]
        · rw [if_neg hf]
          simp only [after, List.flatMap_cons, enc_append, groundFrom_append, List.append_assoc]
      · have hacc : ¬ Accepts U w.expectStarter (s :: pieces).flatten := by
          intro h
          refine ha ⟨fun c hc => h.1 c (by simp [hc]), fun he c hc => h.2 he c ?_⟩
          rw [List.flatten_cons, head?_front hs]
          exact hc
        refine ⟨fun h => absurd h hacc, fun _ => ?_⟩
        have := h2 ha
        cases hr : writeStr U w s with
        | mk w' o =>
          rw [hr] at this
          simp only at this
          subst this
          exact ⟨w', by rw [hcons _ _ hr]⟩

theorem toCrlf_inj : ∀ (n : Nat) {x y : List Char}, x.length ≤ n → toCrlf x = toCrlf y → x = y := by
  intro n
  induction n with
  | zero =>
    intro x y hx h
    have : x = [] := List.eq_nil_of_length_eq_zero (by omega)
    subst this
    exact Classical.byContradiction fun hy => toCrlf_ne (Ne.symm hy) (by rw [← h]; rfl)
  | succ n ih =>
    intro x y hx h
    rcases List.eq_nil_or_concat x with rfl | ⟨x', c, rfl⟩
    · exact Classical.byContradiction fun hy => toCrlf_ne (Ne.symm hy) (by rw [← h]; rfl)
    · rcases List.eq_nil_or_concat y with rfl | ⟨y', d, rfl⟩
      · exact absurd h (toCrlf_ne (by simp))
      · rw [List.concat_eq_append] at hx h ⊢
        rw [List.concat_eq_append] at h ⊢
        rw [toCrlf_append, toCrlf_append] at h
        have hl : ∀ e : Char, (toCrlf [e]).getLast? = some e := by
          intro e; by_cases he : e = '\n'
          · subst he; rfl
          · simp [toCrlf, he]
        have hcd : c = d := by
          have h' := congrArg List.getLast? h
          rw [List.getLast?_append, List.getLast?_append, hl, hl] at h'
          simpa using h'
        subst hcd
        rw [ih (by simp at hx; omega) (List.append_cancel_right h)]

/-- C77, exactly: `write!` succeeds exactly if `write_str` of the formatted string does, which is when all its scalars are allowed and, if nothing
has been written since the start or a flush, the first may be at the start; and then it leaves the same writer and has sent the same exactly if
normalizing the pieces one by one gives the normalized string. -/
theorem c77_exact (w : Writer) (hw : WBetween w) (pieces : List (List Char)) (hne : pieces.flatten ≠ []) :
    ((writeFmt ucd15 w pieces).map (·.2) = some (writeStr ucd15 w pieces.flatten).2) ∧
    ((writeStr ucd15 w pieces.flatten).2 = .ok ↔ (∀ c ∈ pieces.flatten, checkChar c = none ∧ c ≠ ESC) ∧
      (w.expectStarter = true → ∀ c ∈ pieces.flatten.head?, isStart ucd15 c = true)) ∧
    ((writeStr ucd15 w pieces.flatten).2 = .ok →
      (writeFmt ucd15 w pieces = some (writeStr ucd15 w pieces.flatten) ↔ pieces.flatMap (normChain ucd15) = normChain ucd15 pieces.flatten) ∧
      ((writeFmt ucd15 w pieces).map (·.1.sink.sent) = some (writeStr ucd15 w pieces.flatten).1.sink.sent ↔
        pieces.flatMap (normChain ucd15) = normChain ucd15 pieces.flatten)) := by
  obtain ⟨g, hg⟩ := hw.state
  obtain ⟨h1, h2⟩ := write_accepted textLaws15 startLaws15 hw hg (s := pieces.flatten)
  obtain ⟨i1, i2⟩ := fmt_accepted textLaws15 startLaws15 pieces hw hg
  rw [if_neg hne] at i1
  have hacc : Accepts ucd15 w.expectStarter pieces.flatten ↔ (∀ c ∈ pieces.flatten, checkChar c = none ∧ c ≠ ESC) ∧
      (w.expectStarter = true → ∀ c ∈ pieces.flatten.head?, isStart ucd15 c = true) := by
    unfold Accepts
    simp only [okChar_check]
  by_cases ha : Accepts ucd15 w.expectStarter pieces.flatten
  · rw [i1 ha, h1 ha]
    refine ⟨rfl, iff_of_true rfl (hacc.1 ha), fun _ => ?_⟩
    have hinj : ∀ x y : List Char, w.sink.sent ++ enc w.crlf x = w.sink.sent ++ enc w.crlf y → x = y := by
      intro x y h
      have h := List.append_cancel_left h
      unfold enc at h
      split at h
      · exact toCrlf_inj _ (Nat.le_refl _) h
      · exact h
    constructor
    · constructor
      · intro h
        injection h with h
        injection h with h
        exact hinj _ _ (congrArg (fun w => w.sink.sent) h)
      · intro h; rw [h]
    · simp only [Option.map_some, Option.some.injEq]
      exact ⟨fun h => hinj _ _ h, fun h => by simp only [after, h]⟩
  · obtain ⟨w', h⟩ := i2 ha
    have hb := h2 ha
    refine ⟨by rw [h, hb]; rfl, ?_, fun h' => by rw [hb] at h'; simp at h'⟩
    rw [hb]
    exact iff_of_false (by simp) (fun h => ha (hacc.2 h))

/-- C75, exactly: bytes that can be written at once can be written in pieces exactly if no piece but perhaps empty ones begins or ends inside a scalar,
and then with the same result exactly if normalizing the pieces one by one gives the normalized whole. -/
theorem c75_exact (w : Writer) (hw : WBetween w) (bs : List Bytes) (hne : bs.flatten ≠ []) (w' : Writer)
    (h : writeAll ucd15 w bs.flatten = some (w', .ok)) :
    ((∃ w'', writeChunks ucd15 w bs = some (w'', .ok)) ↔ ∃ ss : List (List Char), bs = ss.map encode) ∧
    ∀ ss : List (List Char), bs = ss.map encode →
      (writeChunks ucd15 w bs = some (w', .ok) ↔ ss.flatMap (normChain ucd15) = normChain ucd15 ss.flatten) := by
  have henc : ∀ ss : List (List Char), (ss.map encode).flatten = encode ss.flatten := by
    intro ss
    induction ss with
    | nil => rfl
    | cons s ss ih => rw [List.map_cons, List.flatten_cons, List.flatten_cons, encode_append, ih]
  have key : ∀ ss : List (List Char), bs = ss.map encode → ss.flatten ≠ [] ∧ writeStr ucd15 w ss.flatten = (w', .ok) := by
    rintro ss rfl
    rw [henc] at h hne
    have hn : ss.flatten ≠ [] := fun h => hne (by rw [h]; rfl)
    rw [writeAll_encode w hn, Option.some.injEq] at h
    exact ⟨hn, h⟩
  constructor
  · constructor
    · rintro ⟨w'', h''⟩
      exact writeChunks_whole textLaws15 h''
    · rintro ⟨ss, rfl⟩
      obtain ⟨hn, hs⟩ := key ss rfl
      have := (c77_exact w hw ss hn).1
      rw [hs] at this
      change (writeChunks ucd15 w (ss.map encode)).map (·.2) = some .ok at this
      cases hc : writeChunks ucd15 w (ss.map encode) with
      | none => rw [hc] at this; simp at this
      | some r =>
        obtain ⟨w2, o⟩ := r
        rw [hc] at this
        simp at this
        subst this
        exact ⟨w2, rfl⟩
  · rintro ss rfl
    obtain ⟨hn, hs⟩ := key ss rfl
    have := ((c77_exact w hw ss hn).2.2 (by rw [hs])).1
    rw [hs] at this
    exact this

/-- A letter and a mark, in two pieces or one; and two letters. -/
example : WBetween (.new goodSink) ∧ [['e'], ['́']].flatten ≠ [] ∧
    ([['e'], ['́']].flatMap (normChain ucd15) = normChain ucd15 [['e'], ['́']].flatten) = False ∧
    [['e'], ['f', '́']].flatMap (normChain ucd15) = normChain ucd15 [['e'], ['f', '́']].flatten ∧
    ((writeAll ucd15 (.new goodSink) ([['e'], ['f', '́']].map encode).flatten).map (·.2)) = some .ok :=
  ⟨(idle_new rfl rfl).between, by decide, by simp only [eq_iff_iff, iff_false]; decide +kernel, by decide +kernel, by decide +kernel⟩

/-! ## Reading -/

theorem first_piece_conv {b x : Bytes} (hb : (feedBytes b).1 ≠ []) (h : (utf8Lossy (b ++ x)).head? = some BOM) : 3 ≤ b.length := by
  rw [feedBytes_append] at h
  unfold feedBytes at hb h
  cases hn : b.length with
  | zero => rw [hn] at hb; simp [feedBytesGo] at hb
  | succ n =>
    rw [hn] at hb h
    rw [← hn]
    unfold feedBytesGo at hb h
    cases hd : decode1 b with
    | some p =>
      obtain ⟨c, r⟩ := p
      rw [hd] at h
      simp at h
      subst h
      rw [decode1_some hd, List.length_append]
      have : (encodeChar BOM).length = 3 := by decide
      omega
    | none =>
      rw [hd] at hb h
      simp only at hb h
      split at h
      · rename_i h0; simp [h0] at hb
      · split at h
        · rename_i h0 h1; simp [h0, h1] at hb
        · simp at h; exact absurd h (by decide)

/-- C74, exactly: bytes in pieces make the text they make in one piece exactly if the first piece has three bytes or there is no leading U+FEFF, and,
of the strings that the pieces are decoded to, no one but the last ends inside. -/
theorem c74_exact (nel lsps : Bool) (bs : List Bytes) (last : Bytes) (lens lens' : List Nat) (h : Completes ucd15 nel lsps (byteScript bs last) lens)
    (h' : Completes ucd15 nel lsps (byteScript [] (bs.flatten ++ last)) lens') :
    output ucd15 nel lsps (byteScript bs last) lens = output ucd15 nel lsps (byteScript [] (bs.flatten ++ last)) lens' ↔
      ((∀ b ∈ (bs ++ [last]).head?, 3 ≤ b.length) ∨ (utf8Lossy (bs.flatten ++ last)).head? ≠ some BOM) ∧
      ¬ ReadsInside ucd15 nel lsps (decodeReads [] bs last).1 (decodeReads [] bs last).2 := by
  have hd : (decodeReads [] bs last).1.flatten ++ (decodeReads [] bs last).2 = utf8Lossy (bs.flatten ++ last) := c74_pieces_decode bs last
  have hw : byteScript [] (bs.flatten ++ last) = script [] ((decodeReads [] bs last).1.flatten ++ (decodeReads [] bs last).2) := by
    rw [hd]; rfl
  rw [hw] at h' ⊢
  unfold byteScript at h ⊢
  rw [c16_same_as_whole_iff nel lsps _ _ lens lens' h h']
  refine and_congr_left fun _ => ⟨fun hb => ?_, first_read⟩
  rw [hd] at hb
  by_cases hbom : (utf8Lossy (bs.flatten ++ last)).head? = some BOM
  · left
    have hb := hb.resolve_right (fun h => h hbom)
    cases bs with
    | nil =>
      intro b hb'
      simp at hb'
      subst hb'
      cases hx : decode1 last with
      | none =>
        by_cases h0 : last = []
        · subst h0; simp [utf8Lossy_nil] at hbom
        · simp only [List.flatten_nil, List.nil_append] at hbom
          rw [utf8Lossy_bad hx h0] at hbom
          simp at hbom
          exact absurd hbom (by decide)
      | some p =>
        obtain ⟨c, r⟩ := p
        simp only [List.flatten_nil, List.nil_append] at hbom
        rw [utf8Lossy_good hx] at hbom
        simp at hbom
        subst hbom
        rw [decode1_some hx, List.length_append]
        have : (encodeChar BOM).length = 3 := by decide
        omega
    | cons b bs =>
      intro b' hb'
      simp at hb'
      subst hb'
      simp only [List.flatten_cons, List.append_assoc] at hbom
      exact first_piece_conv (by simpa [decodeReads] using hb) hbom
  · exact .inr hbom

/-- Cut inside U+E9: the same text. Cut inside the byte order mark: not. -/
example : Completes ucd15 false false (byteScript [[0x65, 0xc3]] [0xa9]) [136, 136, 136] ∧
    Completes ucd15 false false (byteScript [] ([[0x65, 0xc3]].flatten ++ [0xa9])) [136, 136, 136] ∧
    output ucd15 false false (byteScript [[0x65, 0xc3]] [0xa9]) [136, 136, 136] = ['e', 'é', '\n'] :=
  ⟨completes_of (by decide +kernel), completes_of (by decide +kernel), by decide +kernel⟩

end Verif
