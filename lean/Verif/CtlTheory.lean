import Verif.ReaderTheory
import Verif.CharData

/-!
# What the reader puts into its queue
-/

namespace Verif
open Ucd
variable {U : Ucd}

/-- Allowed, or one of the scalars normalization replaces by allowed ones. -/
def Fine (c : Char) : Prop := okChar c = true ∨ isLegacy c = true

theorem fine_nl : Fine '\n' := Or.inl (by decide +kernel)
theorem fine_space : Fine ' ' := Or.inl (by decide +kernel)
theorem fine_cgj : Fine CGJ := Or.inl ok_cgj

theorem replace_nl : replace '\n' = ['\n'] := replace_ok (by decide +kernel)

/-- Invariant of the control state `k` and of everything queued so far. -/
structure CtlInv (U : Ucd) (k : Ctl) (T : List Char) : Prop where
  fine : ∀ c ∈ T, Fine c
  head : ∀ c ∈ T.head?, isStart U c = true
  empty : T = [] → k.expectStarter = true ∨ k.state = .cr
  nl : k.state = .ground true → T = [] ∨ T.getLast? = some '\n'

theorem head?_append_some {T o : List Char} {c : Char} (h : c ∈ (T ++ o).head?) : (T ≠ [] ∧ c ∈ T.head?) ∨ (T = [] ∧ c ∈ o.head?) := by
  cases T with
  | nil => right; exact ⟨rfl, by simpa using h⟩
  | cons d T => left; exact ⟨by simp, by simpa using h⟩

/-- Appending something that begins well. -/
theorem CtlInv.app {k k' : Ctl} {T o : List Char} (h : CtlInv U k T) (hf : ∀ c ∈ o, Fine c)
    (hh : T = [] → ∀ c ∈ o.head?, isStart U c = true)
    (he : T = [] → o = [] → k'.expectStarter = true ∨ k'.state = .cr)
    (hn : k'.state = .ground true → o.getLast? = some '\n' ∨ (o = [] ∧ (T = [] ∨ T.getLast? = some '\n'))) : CtlInv U k' (T ++ o) := by
  refine ⟨?_, ?_, ?_, ?_⟩
  · intro c hc
    simp only [List.mem_append] at hc
    rcases hc with hc | hc
    · exact h.fine c hc
    · exact hf c hc
  · intro c hc
    rcases head?_append_some hc with ⟨_, hc⟩ | ⟨ht, hc⟩
    · exact h.head c hc
    · exact hh ht c hc
  · intro hc
    simp only [List.append_eq_nil_iff] at hc
    exact he hc.1 hc.2
  · intro hs
    rcases hn hs with ho | ⟨rfl, ho⟩
    · right; rw [List.getLast?_append, ho]; rfl
    · simpa using ho

theorem start_nl (hU : TextLaws U) : isStart U '\n' = true := hU.start_ascii _ (by decide)
theorem start_space (hU : TextLaws U) : isStart U ' ' = true := hU.start_ascii _ (by decide)

theorem mem_startGuard {b : Bool} {r : List Char} {d : Char} (h : d ∈ startGuard U b r) : d = CGJ ∨ d ∈ r := by
  unfold startGuard at h
  split at h
  · simpa using h
  · exact Or.inr h

theorem startGuard_nil {b : Bool} {r : List Char} (h : startGuard U b r = []) : r = [] := by
  unfold startGuard at h
  split at h
  · simp at h
  · exact h

theorem head_startGuard (hU : TextLaws U) {r : List Char} {d : Char} (h : d ∈ (startGuard U true r).head?) : isStart U d = true := by
  unfold startGuard at h
  split at h
  · simp at h; rw [← h]; exact hU.start_cgj
  · rename_i hb
    rw [Option.mem_def.1 h] at hb
    simpa using hb

/-- What one ground-state step appends. -/
theorem ground_out (hU : TextLaws U) (k : Ctl) (c : Char) :
    (∀ d ∈ (groundStep U k c).2, Fine d) ∧
    (k.expectStarter = true → ∀ d ∈ (groundStep U k c).2.head?, isStart U d = true) ∧
    ((groundStep U k c).2 = [] → (groundStep U k c).1.expectStarter = k.expectStarter ∧ ∀ b, (groundStep U k c).1.state ≠ .ground b) ∧
    ((groundStep U k c).1.state = .ground true → (groundStep U k c).2 = ['\n']) ∧
    (c = '\n' → (groundStep U k c).2 = ['\n']) ∧ (c = '\r' → (groundStep U k c).1.state = .cr) := by
  unfold groundStep
  split
  · rename_i hc
    refine ⟨?_, ?_, by simp, by simp, by simp, ?_⟩
    · intro d hd; simp at hd; rw [hd]; exact fine_nl
    · intro _ d hd; simp at hd; rw [← hd]; exact start_nl hU
    · intro h; rw [h] at hc; simp at hc
  · split
    · simp_all
    · split
      · simp_all
      · split
        · simp_all
        · rename_i h1 h2 h3 h4
          simp only
          have hx : ∀ x : Char, x ≠ ESC → (∀ d ∈ replace x, Fine d) ∧ replace x ≠ [] := fun x hx =>
            ⟨fun d hd => replace_mem hx hd, replace_ne_nil x⟩
          have hne : (if (k.nel && c == NEL || k.lsps && (c == LS || c == PS)) = true then '\n' else c) ≠ ESC := by
            split
            · decide
            · exact h4
          refine ⟨?_, ?_, ?_, ?_, fun h => absurd h h1, fun h => absurd h h2⟩
          · intro d hd
            rcases mem_startGuard hd with rfl | hd
            · exact fine_cgj
            · exact (hx _ hne).1 d hd
          · intro he d hd
            rw [he] at hd
            exact head_startGuard hU hd
          · intro h
            exact absurd (startGuard_nil h) (hx _ hne).2
          · intro h
            injection h with h
            rw [if_pos h, replace_nl]
            simp [startGuard, start_nl hU]

theorem ctl_step (hU : TextLaws U) {k : Ctl} {T : List Char} (h : CtlInv U k T) (c : Char) :
    CtlInv U (stepChar U k c).1 (T ++ (stepChar U k c).2) := by
  have hg : ∀ (k1 : Ctl) (pre : List Char), CtlInv U k1 (T ++ pre) → (T ++ pre = [] → k1.expectStarter = true ∨ c = '\n' ∨ c = '\r') →
      CtlInv U (groundStep U k1 c).1 (T ++ (pre ++ (groundStep U k1 c).2)) := by
    intro k1 pre h1 he
    obtain ⟨g1, g2, g3, g4, g5, g6⟩ := ground_out hU k1 c
    rw [← List.append_assoc]
    refine h1.app g1 ?_ ?_ ?_
    · intro hT d hd
      rcases he hT with he | he | he
      · exact g2 he d hd
      · rw [g5 he] at hd; simp at hd; rw [← hd]; exact start_nl hU
      · exfalso
        have := g3
        subst he
        simp [groundStep] at hd
    · intro hT ho
      rcases he hT with he | he | he
      · left; rw [(g3 ho).1]; exact he
      · rw [g5 he] at ho; simp at ho
      · right; exact g6 he
    · intro hs; left; rw [g4 hs]; rfl
  have hgnd : ∀ b, CtlInv U k T → T = [] → k.state = .ground b ∨ k.state ≠ .cr → k.expectStarter = true := by
    intro b h hT hs
    rcases h.empty hT with he | he
    · exact he
    · rcases hs with hs | hs
      · rw [hs] at he; simp at he
      · exact absurd he hs
  have hstep : ∀ s', (∀ b, s' ≠ .ground b) → k.state ≠ .cr → CtlInv U { k with state := s' } (T ++ []) := by
    intro s' hs hk
    refine h.app (by simp) (by simp) ?_ ?_
    · intro hT _; left; exact hgnd true h hT (Or.inr hk)
    · intro hs'; exact absurd hs' (hs true)
  have hgf : k.state ≠ .cr → CtlInv U { k with state := .ground false } (T ++ []) := by
    intro hk
    refine h.app (by simp) (by simp) ?_ ?_
    · intro hT _; left; exact hgnd true h hT (Or.inr hk)
    · intro hs'; simp at hs'
  have hgg : k.state ≠ .cr → CtlInv U (groundStep U { k with state := .ground false } c).1 (T ++ (groundStep U { k with state := .ground false } c).2) := by
    intro hk
    have := hg { k with state := .ground false } [] (hgf hk) (fun hT => Or.inl (hgnd true h (by simpa using hT) (Or.inr hk)))
    simpa using this
  unfold stepChar
  split
  · rename_i b hs
    have := hg k [] (by simpa using h) (fun hT => Or.inl (hgnd b h (by simpa using hT) (Or.inl hs)))
    simpa using this
  · have hcr : CtlInv U { k with state := .ground true, expectStarter := false } (T ++ ['\n']) := by
      refine h.app ?_ ?_ (by simp) (by simp)
      · intro d hd; simp at hd; rw [hd]; exact fine_nl
      · intro _ d hd; simp at hd; rw [← hd]; exact start_nl hU
    simp only
    split
    · have := hg _ ['\n'] hcr (by simp)
      simpa using this
    · exact hcr
  · rename_i hs
    have hk : k.state ≠ .cr := by rw [hs]; simp
    split
    · simp only
      by_cases hnl : c ≠ '\n' ∧ c ≠ '\r'
      · rw [if_pos hnl]
        refine hg _ [' '] ?_ (by simp)
        refine h.app ?_ ?_ (by simp) (by simp)
        · intro d hd; simp at hd; rw [hd]; exact fine_space
        · intro _ d hd; simp at hd; rw [← hd]; exact start_space hU
      · rw [if_neg hnl]
        have hnl : c = '\n' ∨ c = '\r' := by
          by_cases h1 : c = '\n'
          · exact Or.inl h1
          · by_cases h2 : c = '\r'
            · exact Or.inr h2
            · exact absurd ⟨h1, h2⟩ hnl
        obtain ⟨g1, g2, g3, g4, g5, g6⟩ := ground_out hU { k with state := .ground false, expectStarter := false } c
        refine h.app g1 ?_ ?_ ?_
        · intro hT d hd
          rcases hnl with he | he
          · rw [List.nil_append, g5 he] at hd; simp at hd; rw [← hd]; exact start_nl hU
          · exfalso; subst he; simp [groundStep] at hd
        · intro hT ho
          rcases hnl with he | he
          · rw [List.nil_append, g5 he] at ho; simp at ho
          · right; exact g6 he
        · intro hs'; left; rw [List.nil_append, g4 hs']; rfl
    · simpa using h
  · rename_i hs
    have hk : k.state ≠ .cr := by rw [hs]; simp
    repeat' split
    · exact hstep _ (by simp) hk
    · exact hstep _ (by simp) hk
    · exact hstep _ (by simp) hk
    · exact hgf hk
    · exact hgg hk
  · rename_i hs
    have hk : k.state ≠ .cr := by rw [hs]; simp
    repeat' split
    · exact hstep _ (by simp) hk
    · exact hstep _ (by simp) hk
    · exact hgf hk
    · exact hgf hk
    · exact hgg hk
  · rename_i hs
    have hk : k.state ≠ .cr := by rw [hs]; simp
    repeat' split
    · exact hstep _ (by simp) hk
    · exact hgf hk
    · exact hgf hk
    · exact hgg hk
  · rename_i hs
    have hk : k.state ≠ .cr := by rw [hs]; simp
    repeat' split
    · exact hgf hk
    · exact hstep _ (by simp) hk
    · simpa using h
  · rename_i hs
    have hk : k.state ≠ .cr := by rw [hs]; simp
    repeat' split
    · exact hgf hk
    · exact hgg hk

theorem ctl_feed (hU : TextLaws U) : ∀ (s : List Char) (k : Ctl) (T : List Char), CtlInv U k T →
    CtlInv U (feed U k s).1 (T ++ (feed U k s).2) := by
  intro s
  induction s with
  | nil => intro k T h; simpa [feed] using h
  | cons c s ih =>
    intro k T h
    have := ih _ _ (ctl_step hU h c)
    simpa [feed, List.append_assoc] using this

theorem CtlInv.atStart {k : Ctl} {T : List Char} (h : CtlInv U k T) (b : Bool) : CtlInv U { k with atStart := b } T :=
  ⟨h.fine, h.head, h.empty, h.nl⟩

theorem ctl_processRaw (hU : TextLaws U) {k : Ctl} {T : List Char} (h : CtlInv U k T) (s : List Char) :
    CtlInv U (processRaw U k s).1 (T ++ (processRaw U k s).2) := ctl_feed hU _ _ _ (h.atStart false)

theorem ctl_finishState (hU : TextLaws U) {k : Ctl} {T : List Char} (h : CtlInv U k T) :
    CtlInv U (finishState k).1 (T ++ (finishState k).2) ∧ (∃ b, (finishState k).1.state = .ground b) := by
  have hoth : k.state ≠ .cr → CtlInv U { k with state := .ground false } (T ++ []) := by
    intro hk
    refine h.app (by simp) (by simp) ?_ (by simp)
    intro hT _
    rcases h.empty hT with he | he
    · exact Or.inl he
    · exact absurd he hk
  unfold finishState
  cases hs : k.state with
  | ground b => exact ⟨by simpa using h, ⟨b, hs⟩⟩
  | cr =>
    refine ⟨h.app ?_ ?_ (by simp) (by simp), ⟨true, rfl⟩⟩
    · intro d hd; simp at hd; rw [hd]; exact fine_nl
    · intro _ d hd; simp at hd; rw [← hd]; exact start_nl hU
  | ff =>
    refine ⟨h.app ?_ ?_ (by simp) (by simp), ⟨false, rfl⟩⟩
    · intro d hd; simp at hd; rw [hd]; exact fine_space
    · intro _ d hd; simp at hd; rw [← hd]; exact start_space hU
  | _ => exact ⟨hoth (by simp [hs]), ⟨false, rfl⟩⟩

theorem endGuard_fine (o : Option Char) : ∀ c ∈ endGuard o, c = CGJ := by
  intro c hc
  unfold endGuard at hc
  split at hc
  · split at hc <;> simp_all
  · simp at hc

/-- Finishing keeps the invariant; afterwards the text ends well, with a newline if it is the end. -/
theorem ctl_finish (hU : TextLaws U) {k : Ctl} {T : List Char} (h : CtlInv U k T) (st : Status) :
    CtlInv U (finish k T.getLast? st).1 (T ++ (finish k T.getLast? st).2) ∧
    (∀ c ∈ (T ++ (finish k T.getLast? st).2).getLast?, isEnd c = true) ∧
    (st = .end_ → (finish k T.getLast? st).1.state = .ground true) := by
  obtain ⟨h1, b, hb⟩ := ctl_finishState hU h
  unfold finish
  revert h1 hb
  generalize finishState k = p
  obtain ⟨k1, o1⟩ := p
  simp only
  intro h1 hb
  have hlast : (o1.getLast?).or T.getLast? = (T ++ o1).getLast? := by rw [List.getLast?_append]
  rw [hlast]
  have hguard : ∀ c ∈ (T ++ (o1 ++ endGuard (T ++ o1).getLast?)).getLast?, isEnd c = true := by
    intro c hc
    rw [← List.append_assoc, List.getLast?_append] at hc
    unfold endGuard at hc
    cases hl : (T ++ o1).getLast? with
    | none => rw [hl] at hc; simp at hc
    | some l =>
      rw [hl] at hc
      simp only at hc
      by_cases he : isEnd l = true
      · rw [if_pos he] at hc
        simp at hc; rw [← hc]; exact he
      · rw [if_neg he] at hc
        simp at hc; rw [← hc]; exact end_cgj
  have hinv2 : CtlInv U k1 (T ++ (o1 ++ endGuard (T ++ o1).getLast?)) := by
    rw [← List.append_assoc]
    refine h1.app ?_ ?_ (fun hT _ => h1.empty hT) ?_
    · intro c hc; rw [endGuard_fine _ c hc]; exact fine_cgj
    · intro hT c hc
      rw [hT] at hc
      simp [endGuard] at hc
    · intro hs
      right
      rcases h1.nl hs with hT | hT
      · rw [hT]; simp [endGuard]
      · rw [hT]; simp [endGuard, end_nl]
  split
  · rename_i hcond
    refine ⟨?_, ?_, by simp⟩
    · rw [← List.append_assoc]
      refine hinv2.app ?_ ?_ (by simp) (by simp)
      · intro d hd; simp at hd; rw [hd]; exact fine_nl
      · intro _ d hd; simp at hd; rw [← hd]; exact start_nl hU
    · intro c hc
      rw [← List.append_assoc, List.getLast?_append] at hc
      simp at hc; rw [← hc]; exact end_nl
  · rename_i hcond
    refine ⟨hinv2, hguard, ?_⟩
    intro he
    apply Classical.byContradiction
    intro hne
    exact hcond ⟨he, hne⟩

theorem ctl_expect {k : Ctl} {T : List Char} (h : CtlInv U k T) : CtlInv U { k with expectStarter := true } T :=
  ⟨h.fine, h.head, fun _ => Or.inl rfl, h.nl⟩

theorem ctl_absorb (hU : TextLaws U) {kt : Ctl × List Char} (h : CtlInv U kt.1 kt.2) (s : List Char) (st : Status) :
    CtlInv U (absorb U kt s st).1 (absorb U kt s st).2 ∧
    (st ≠ .active → ∀ c ∈ (absorb U kt s st).2.getLast?, isEnd c = true) ∧
    (st = .end_ → (absorb U kt s st).1.state = .ground true) := by
  obtain ⟨k, T⟩ := kt
  have h1 := ctl_processRaw hU h s
  unfold absorb
  simp only at h1 ⊢
  split
  · rename_i hs
    exact ⟨h1, fun h => absurd hs h, by simp [hs]⟩
  · have h2 := ctl_finish hU h1 st
    exact ⟨ctl_expect h2.1, fun _ => h2.2.1, h2.2.2⟩

theorem ctl_absorbAll (hU : TextLaws U) : ∀ (es : List Event) (kt : Ctl × List Char), CtlInv U kt.1 kt.2 →
    CtlInv U (absorbAll U kt es).1 (absorbAll U kt es).2 := by
  intro es
  induction es with
  | nil => intro kt h; exact h
  | cons e es ih =>
    intro kt h
    cases e with
    | err => exact ih kt h
    | data s st => exact ih _ (ctl_absorb hU h s st).1

theorem ctl_new (nel lsps : Bool) : CtlInv U (TextInput.new nel lsps).ctl [] :=
  ⟨by simp, by simp, fun _ => Or.inl rfl, fun _ => Or.inl rfl⟩

end Verif
