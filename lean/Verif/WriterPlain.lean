import Verif.WriterRuns

/-!
# The writer without color mode

What one call sends, exactly.
-/

namespace Verif
open Ucd
variable {U : Ucd}

/-- The ground state after writing `l`. -/
def groundFrom (g : Ground) (l : List Char) : Ground := if l = [] then g else groundAfter l

theorem groundFrom_cons (g : Ground) (c : Char) (l : List Char) : groundFrom g (c :: l) = groundFrom (groundAfter [c]) l := by
  unfold groundFrom
  rw [if_neg (by simp)]
  split
  · rename_i h; rw [h]
  · rename_i h; exact groundAfter_append [c] h

theorem groundFrom_append (g : Ground) (a b : List Char) : groundFrom g (a ++ b) = groundFrom (groundFrom g a) b := by
  induction a generalizing g with
  | nil => rfl
  | cons c a ih => rw [List.cons_append, groundFrom_cons, groundFrom_cons, ih]

theorem groundAfter_from (a b : List Char) : groundAfter (a ++ b) = groundFrom (groundAfter a) b := by
  unfold groundFrom
  split
  · rename_i h; simp [h]
  · rename_i h; exact groundAfter_append a h

theorem ok_ne {c : Char} (h : okChar c = true) : c ≠ ESC ∧ c ≠ SUB := by
  constructor <;> rintro rfl
  · exact absurd h (by decide +kernel)
  · exact absurd h (by decide +kernel)

theorem putAll_plain {rej : Bool} : ∀ {l : List Char} {w : Writer} {g : Ground}, w.state = .ground g → (∀ c ∈ l, okChar c = true) →
    putAll rej w l = ({ w with buffer := w.buffer ++ l, state := .ground (groundFrom g l) }, .ok) := by
  intro l
  induction l with
  | nil => intro w g hg _; simp [putAll, groundFrom, ← hg]
  | cons c l ih =>
    intro w g hg h
    obtain ⟨h1, h2⟩ := ok_ne (h c (by simp))
    have hp : putChar rej w c = ({ w with buffer := w.buffer ++ [c], state := .ground (groundAfter [c]) }, .ok) := by
      unfold putChar
      simp only [hg, if_neg h1]
      split
      · rename_i hc; subst hc; rfl
      · rename_i hc
        simp [groundAfter, hc]
    unfold putAll
    rw [hp]
    simp only
    rw [ih rfl (fun d hd => h d (by simp [hd])), groundFrom_cons]
    simp

theorem putAll_esc {rej : Bool} {l : List Char} (he : ESC ∈ l) : ∀ {w : Writer} {g : Ground}, w.state = .ground g → w.ansi = false →
    (putAll rej w l).2 ≠ .ok := by
  induction l with
  | nil => simp at he
  | cons c l ih =>
    intro w g hg ha
    unfold putAll
    by_cases hc : c = ESC
    · have : putChar rej w c = (w.fail, .err) := by unfold putChar; simp [hg, hc, ha]
      rw [this]; simp
    · have he' : ESC ∈ l := by
        rcases List.mem_cons.1 he with h | h
        · exact absurd h.symm hc
        · exact h
      split
      · rename_i w1 h1
        have hst : ∃ g', w1.state = .ground g' := by
          unfold putChar at h1
          simp only [hg, if_neg hc] at h1
          split at h1
          · simp at h1; rw [← h1]; exact ⟨_, rfl⟩
          · split at h1
            · cases rej <;> simp at h1
            · simp at h1; rw [← h1]; exact ⟨_, rfl⟩
        obtain ⟨g', hg'⟩ := hst
        exact ih he' hg' (by rw [(putChar_ok h1).1.ansi]; exact ha)
      · rename_i h1
        intro h
        exact h1 _ (Prod.ext rfl h)

theorem stateMachine_plain (hU : TextLaws U) {w : Writer} {g : Ground} {s : List Char} (hg : w.state = .ground g) (h : ∀ c ∈ s, okChar c = true) :
    stateMachine U w s = ({ w with buffer := w.buffer ++ normChain U s, state := .ground (groundFrom g (normChain U s)) }, .ok) := by
  rw [stateMachine_clean hU fun c hc => (okChar_check.1 (h c hc)).1]
  exact putAll_plain hg (ok_normChain hU fun c hc => Or.inl (h c hc))

theorem stateMachine_plain_bad (hU : TextLaws U) {w : Writer} {g : Ground} {s : List Char} (hg : w.state = .ground g) (ha : w.ansi = false)
    (h : ¬ ∀ c ∈ s, okChar c = true) : (stateMachine U w s).2 ≠ .ok := by
  intro ho
  obtain ⟨h1, h2⟩ := stateMachine_ok hU (Prod.ext rfl ho : stateMachine U w s = (_, .ok))
  by_cases he : ESC ∈ s
  · have := putAll_esc (rej := false) (normChain_keeps hU (by decide) he) hg ha
    rw [h2] at this; exact this rfl
  · exact h fun c hc => okChar_check.2 ⟨h1 c hc, fun hh => he (hh ▸ hc)⟩

/-- How a text goes out. -/
def enc (crlf : Bool) (s : List Char) : List Char := if crlf then toCrlf s else s

theorem normChain_joinNl (hU : TextLaws U) (l : List (List Char)) :
    normChain U (joinNl ['\n'] l) = joinNl ['\n'] (l.map (normChain U)) := by
  induction l with
  | nil => rfl
  | cons x xs ih =>
    cases xs with
    | nil => rfl
    | cons y ys =>
      simp only [joinNl, List.map_cons] at *
      rw [List.append_assoc, List.singleton_append,
        normChain_split hU (hU.ctl_inert '\n' (by decide)) (by simp [isAssigned, hU.assigned_ascii '\n' (by decide)]) (by decide), ih]
      simp

theorem joinNl_toCrlf {l : List (List Char)} (h : ∀ x ∈ l, '\n' ∉ x) : joinNl ['\r', '\n'] l = toCrlf (joinNl ['\n'] l) := by
  induction l with
  | nil => rfl
  | cons x xs ih =>
    cases xs with
    | nil => simp only [joinNl]; rw [toCrlf_id (h x (by simp))]
    | cons y ys =>
      simp only [joinNl] at *
      rw [toCrlf_append, toCrlf_append, toCrlf_id (h x (by simp)), ← ih (fun z hz => h z (by simp [hz]))]
      rfl

theorem crlfRest_plain (hU : TextLaws U) : ∀ {l : List (List Char)} {w : Writer} {g : Ground}, w.state = .ground g →
    (∀ x ∈ l, ∀ c ∈ x, okChar c = true) → ∀ (z : List Char), ∃ y,
    crlfRest U w l = ({ w with buffer := w.buffer ++ y, state := .ground (groundFrom g (match l with | [] => [] | _ => '\n' :: joinNl ['\n'] (l.map (normChain U)))) }, .ok) ∧
      z ++ y = joinNl ['\r', '\n'] (z :: l.map (normChain U)) := by
  intro l
  induction l with
  | nil => intro w g hg _ z; exact ⟨[], by simp [crlfRest, groundFrom, ← hg], by simp [joinNl]⟩
  | cons x xs ih =>
    intro w g hg h z
    rw [crlfRest_cons, stateMachine_plain hU (g := .newline) rfl (h x (by simp))]
    obtain ⟨y, hy, hj⟩ := ih (w := { w.crlfNl with buffer := w.crlfNl.buffer ++ normChain U x, state := .ground (groundFrom .newline (normChain U x)) })
      rfl (fun a ha => h a (by simp [ha])) (normChain U x)
    refine ⟨['\r', '\n'] ++ normChain U x ++ y, ?_, ?_⟩
    · simp only
      rw [hy]
      simp only [Writer.crlfNl, List.append_assoc]
      congr 3
      rw [← groundFrom_append, groundFrom_cons]
      congr 1
      cases xs with
      | nil => simp [joinNl]
      | cons a as => simp [joinNl]
    · simp only [List.map_cons, joinNl, List.append_assoc]; rw [hj]

theorem prepStr_plain (hU : TextLaws U) {w : Writer} {g : Ground} {s : List Char} (hg : w.state = .ground g) (h : ∀ c ∈ s, okChar c = true) :
    prepStr U w s = ({ w with buffer := w.buffer ++ enc w.crlf (normChain U s), state := .ground (groundFrom g (normChain U s)) }, .ok) := by
  unfold prepStr enc
  split
  · have hnl : ∀ x ∈ (splitNl s).map (normChain U), '\n' ∉ x := by
      intro x hx
      obtain ⟨y, hy, rfl⟩ := List.mem_map.1 hx
      intro hm
      exact splitNl_nl s y hy (mem_normChain_inert hU (hU.ctl_inert '\n' (by decide)) (by decide) hm)
    have hm := splitNl_mem s
    have hs := joinNl_splitNl s
    cases hx : splitNl s with
    | nil => exact absurd hx (splitNl_ne s)
    | cons x xs =>
      rw [hx] at hnl hm hs
      rw [crlfLoop_cons, stateMachine_plain hU hg (fun c hc => h c (hm x (by simp) c hc))]
      obtain ⟨y, hy, hj⟩ := crlfRest_plain hU (l := xs) (w := { w with buffer := w.buffer ++ normChain U x, state := .ground (groundFrom g (normChain U x)) })
        rfl (fun a ha c hc => h c (hm a (by simp [ha]) c hc)) (normChain U x)
      simp only
      rw [hy]
      have hN : joinNl ['\n'] ((x :: xs).map (normChain U)) = normChain U s := by rw [← normChain_joinNl hU, hs]
      simp only [List.append_assoc]
      rw [hj]
      congr 3
      · rw [show normChain U x :: xs.map (normChain U) = (x :: xs).map (normChain U) from rfl, joinNl_toCrlf hnl, hN]
      · rw [← groundFrom_append, ← hN]
        congr 2
        cases xs with
        | nil => simp [joinNl]
        | cons a as => simp [joinNl]
  · exact stateMachine_plain hU hg h

theorem crlfRest_plain_ok (hU : TextLaws U) : ∀ {l : List (List Char)} {w : Writer}, w.ansi = false →
    (crlfRest U w l).2 = .ok → ∀ x ∈ l, ∀ c ∈ x, okChar c = true := by
  intro l
  induction l with
  | nil => simp
  | cons x xs ih =>
    intro w ha ho
    have hx : ∀ c ∈ x, okChar c = true := by
      apply Classical.byContradiction
      intro hx
      have := stateMachine_plain_bad hU (w := w.crlfNl) (g := .newline) rfl ha hx
      rw [crlfRest_cons] at ho
      split at ho
      · rename_i h1; rw [h1] at this; exact this rfl
      · exact this ho
    rw [crlfRest_cons, stateMachine_plain hU (g := .newline) rfl hx] at ho
    intro y hy
    rcases List.mem_cons.1 hy with rfl | hy
    · exact hx
    · exact ih (w := { w.crlfNl with buffer := w.crlfNl.buffer ++ normChain U x, state := .ground (groundFrom .newline (normChain U x)) }) ha ho y hy

theorem prepStr_plain_ok (hU : TextLaws U) {w : Writer} {g : Ground} {s : List Char} (hg : w.state = .ground g) (ha : w.ansi = false)
    (ho : (prepStr U w s).2 = .ok) : ∀ c ∈ s, okChar c = true := by
  unfold prepStr at ho
  split at ho
  · have hs := joinNl_splitNl s
    have key : ∀ x ∈ splitNl s, ∀ c ∈ x, okChar c = true := by
      cases hx : splitNl s with
      | nil => simp
      | cons x xs =>
        rw [hx, crlfLoop_cons] at ho
        have h1 : ∀ c ∈ x, okChar c = true := by
          apply Classical.byContradiction
          intro hx
          have := stateMachine_plain_bad hU hg ha hx
          split at ho
          · rename_i h1; rw [h1] at this; exact this rfl
          · exact this ho
        rw [stateMachine_plain hU hg h1] at ho
        intro y hy
        rcases List.mem_cons.1 hy with rfl | hy
        · exact h1
        · exact crlfRest_plain_ok hU (w := { w with buffer := w.buffer ++ normChain U x, state := .ground (groundFrom g (normChain U x)) }) ha ho y hy
    intro c hc
    rw [← hs] at hc
    rcases mem_joinNl hc with rfl | ⟨x, hx, hc⟩
    · decide +kernel
    · exact key x hx c hc
  · exact Classical.byContradiction fun h => stateMachine_plain_bad hU hg ha h ho

/-! ## One write -/

/-- What a write says, in terms of U+A newlines. -/
def said (U : Ucd) : Op → List Char
  | .str s => normChain U s
  | .text s => s
  | .bytes b => normChain U (decodePrefix b).1
  | _ => []

/-- Is everything in the write allowed? -/
def Clean : Op → Prop
  | .str s => ∀ c ∈ s, okChar c = true
  | .text _ => True
  | .bytes b => (∀ c ∈ (decodePrefix b).1, okChar c = true) ∧ ((decodePrefix b).2 = [] ∨ (decodePrefix b).1 ≠ [])
  | _ => True

/-- The ground state after a write. -/
def groundNext (U : Ucd) (g : Ground) : Op → Ground
  | .text s => groundAfter s
  | op => groundFrom g (said U op)

theorem encode_ne {s : List Char} : (encode s).length ≠ 0 ↔ s ≠ [] := by
  cases s with
  | nil => simp [encode]
  | cons c s =>
    have := length_le_encode (c :: s)
    simp only [List.length_cons] at this
    constructor
    · simp
    · intro _; omega

theorem load_plain (hU : TextLaws U) {op : Op} (hw : op.isWrite = true) {w : Writer} {g : Ground} (hg : w.state = .ground g) (h : Clean op) :
    load U w op = ({ w with buffer := w.buffer ++ enc w.crlf (said U op), state := .ground (groundNext U g op) }, .ok) := by
  cases op with
  | str s => exact prepStr_plain hU hg h
  | text s => simp only [load, prepText_eq]; rfl
  | bytes b =>
    simp only [load]
    rw [if_pos]
    · exact prepStr_plain hU hg h.1
    · rw [encode_ne]; exact h.2
  | _ => simp [Op.isWrite] at hw

theorem load_plain_ok (hU : TextLaws U) {op : Op} {w : Writer} {g : Ground} (hg : w.state = .ground g) (ha : w.ansi = false)
    (ho : (load U w op).2 = .ok) : Clean op := by
  cases op with
  | str s => exact prepStr_plain_ok hU hg ha ho
  | bytes b =>
    simp only [load] at ho
    split at ho
    · rename_i h; rw [encode_ne] at h; exact ⟨prepStr_plain_ok hU hg ha ho, h⟩
    · simp at ho
  | _ => trivial

theorem head_enc (U : Ucd) (hU : TextLaws U) {crlf : Bool} {s : List Char} :
    (∀ c, (enc crlf s).head? = some c → isStart U c = true) ↔ ∀ c, s.head? = some c → isStart U c = true := by
  unfold enc
  split
  · cases s with
    | nil => simp [toCrlf]
    | cons c s =>
      by_cases hc : c = '\n'
      · subst hc
        have h1 := hU.start_ascii '\n' (by decide)
        have h2 := hU.start_ascii '\r' (by decide)
        simp [toCrlf, h1, h2]
      · simp [toCrlf, hc]
  · exact Iff.rfl

/-- Is the write accepted (by a sink that does not fail)? -/
def Good (U : Ucd) (expect : Bool) (op : Op) : Prop :=
  Clean op ∧ (expect = true → ∀ c, (said U op).head? = some c → isStart U c = true)

theorem step_good (hU : TextLaws U) {op : Op} (hw : op.isWrite = true) {w : Writer} {g : Ground} (hg : w.state = .ground g)
    (hb : w.buffer = []) (hd : w.sink.dead = false) (hs : w.sink.script = []) (h : Good U w.expectStarter op) :
    step U w op = ({ w with expectStarter := false, state := .ground (groundNext U g op), sink := { w.sink with sent := w.sink.sent ++ enc w.crlf (said U op) } }, .ok) := by
  rw [step_write hw, load_plain hU hw hg h.1]
  simp only
  unfold writeBuffer
  simp only
  rw [if_neg]
  · simp [Sink.writeStr, hd, hs, hb]
  · simp only [hb, List.nil_append]
    cases he : w.expectStarter with
    | false => simp
    | true =>
      cases hh : (enc w.crlf (said U op)).head? with
      | none => simp
      | some c => simp [(head_enc U hU).2 (h.2 he) c hh]

theorem step_bad (hU : TextLaws U) {op : Op} (hw : op.isWrite = true) {w : Writer} {g : Ground} (hg : w.state = .ground g) (ha : w.ansi = false)
    (hb : w.buffer = []) (h : ¬ Good U w.expectStarter op) :
    (step U w op).2 = .err ∧ (step U w op).1.sink = w.sink.abandon ∧ (step U w op).1.state = .ground .newline ∧
      (step U w op).1.crlf = w.crlf ∧ (step U w op).1.ansi = w.ansi := by
  rw [step_write hw]
  by_cases hc : Clean op
  · rw [load_plain hU hw hg hc]
    have hst : w.expectStarter = true ∧ ¬ ∀ c, (said U op).head? = some c → isStart U c = true := by
      have h2 : ¬ (w.expectStarter = true → ∀ c, (said U op).head? = some c → isStart U c = true) := fun h2 => h ⟨hc, h2⟩
      exact Classical.not_imp.1 h2
    simp only
    unfold writeBuffer
    simp only
    rw [if_pos]
    · exact ⟨rfl, rfl, rfl, rfl, rfl⟩
    · rw [hst.1]
      have := (not_congr (head_enc U hU (crlf := w.crlf))).2 hst.2
      cases hh : (enc w.crlf (said U op)).head? with
      | none => exact absurd (by simp [hh]) this
      | some c =>
        simp [hh] at this
        simp [hb, hh, this]
  · cases hl : load U w op with
    | mk p o =>
      have ho : o ≠ .ok := by
        rintro rfl
        exact hc (load_plain_ok hU hg ha (by rw [hl]))
      obtain ⟨rfl, hF⟩ := load_not_ok hU hl ho
      exact ⟨rfl, hF.sink, hF.state, hF.crlf, hF.ansi⟩

end Verif
