import Verif.Props.Prompt
import Verif.LineCut
import Verif.Utf8Stream
import Verif.TalkPieces
import Verif.LockstepPlaces

/-!
# Sources that end early

What two sources that begin alike deliver alike.
-/

namespace Verif
open Ucd Spec

variable {U : Ucd}

/-- More input only adds output. -/
theorem processRaw_more (k : Ctl) (a b : List Char) : ∃ z, (processRaw U k (a ++ b)).2 = (processRaw U k a).2 ++ z := by
  cases a with
  | nil => exact ⟨_, by rw [processRaw_nil]; rfl⟩
  | cons c a =>
    have key : ∀ x y : List Char, ∃ z, (feed U { k with atStart := false } (x ++ y)).2 = (feed U { k with atStart := false } x).2 ++ z :=
      fun x y => ⟨_, by rw [feed_append]⟩
    cases hb : (k.atStart && (some c == some BOM)) with
    | true =>
      have h1 : ∀ r, processRaw U k (c :: r) = feed U { k with atStart := false } r := fun r => by
        show feed U _ (if (k.atStart && (some c == some BOM)) = true then r else c :: r) = _
        rw [hb]; rfl
      rw [List.cons_append, h1, h1]
      exact key a b
    | false =>
      have h1 : ∀ r, processRaw U k (c :: r) = feed U { k with atStart := false } (c :: r) := fun r => by
        show feed U _ (if (k.atStart && (some c == some BOM)) = true then r else c :: r) = _
        rw [hb]; rfl
      rw [List.cons_append, h1, h1]
      exact key (c :: a) b

theorem absorb_drop (kt : Ctl × List Char) (s : List Char) (st : Status) : (absorb U kt s st).2.drop kt.2.length =
    (processRaw U kt.1 s).2 ++ if st = .active then [] else (finish (processRaw U kt.1 s).1 (kt.2 ++ (processRaw U kt.1 s).2).getLast? st).2 := by
  unfold absorb
  simp only
  split <;> simp

/-- A text up to its last newline. -/
theorem last_line (s : List Char) : '\n' ∉ s ∨ ∃ x y, s = x ++ '\n' :: y ∧ '\n' ∉ y := by
  induction s with
  | nil => left; simp
  | cons c s ih =>
    rcases ih with h | ⟨x, y, rfl, h⟩
    · by_cases hc : c = '\n'
      · subst hc; exact .inr ⟨[], s, rfl, h⟩
      · left; simp [h, Ne.symm hc]
    · exact .inr ⟨c :: x, y, rfl, h⟩

theorem newline_chain (hU : TextLaws U) {s : List Char} (h : '\n' ∉ s) : '\n' ∉ normChain U s :=
  fun hm => h (mem_normChain_inert hU (inert_lf hU) (by decide) hm)

/-- Normalization leaves a last newline where it is. -/
theorem newline_last (hU : TextLaws U) {s : List Char} (h : '\n' ∉ s.dropLast) : '\n' ∉ (normChain U s).dropLast := by
  rcases List.eq_nil_or_concat s with rfl | ⟨x, c, rfl⟩
  · rw [normChain_nil]; simp
  · rw [List.concat_eq_append, List.dropLast_concat] at h
    rw [List.concat_eq_append]
    by_cases hc : c = '\n'
    · subst hc
      rw [normChain_nl hU, List.dropLast_concat]
      exact newline_chain hU h
    · have : '\n' ∉ x ++ [c] := by simp [h, Ne.symm hc]
      exact fun hm => newline_chain hU this (List.dropLast_subset _ hm)

/-- Two sources begin with the same reads; in the next the output has `oc` in common, behind which the first source puts out no newline but at
the end, and ends.  Then they deliver the same lines. -/
theorem early_core (hU : TextLaws U) (nel lsps : Bool) (evs : List Event) (s s' : List Char) (st' : Status) (more : List Event)
    (hev : ∀ e ∈ evs, ∃ s st, e = .data s st ∧ st ≠ .end_) {oc f z : List Char}
    (h1 : (absorb U (absorbAll U ((TextInput.new nel lsps).ctl, []) evs) s .end_).2.drop (absorbAll U ((TextInput.new nel lsps).ctl, []) evs).2.length = oc ++ f)
    (hf : '\n' ∉ f.dropLast)
    (h2 : (absorb U (absorbAll U ((TextInput.new nel lsps).ctl, []) evs) s' st').2.drop (absorbAll U ((TextInput.new nel lsps).ctl, []) evs).2.length = oc ++ z) :
    ∃ c t t', (segments U nel lsps (evs ++ [.data s .end_])).flatMap (normChain U) = c ++ t ∧
      (segments U nel lsps (evs ++ .data s' st' :: more)).flatMap (normChain U) = c ++ t' ∧ '\n' ∉ t.dropLast := by
  have hend : Ending (evs ++ [.data s .end_]) := ⟨evs, s, rfl, hev⟩
  have hset := absorbAll_ending hU hend (kt := ((TextInput.new nel lsps).ctl, [])) (ctl_new (U := U) nel lsps)
  have htot := segAll_total (U := U) evs ((TextInput.new nel lsps).ctl, []) ([], []) rfl
  unfold segments
  rw [segAll_append, segAll_append]
  rw [absorbAll_append] at hset
  generalize absorbAll U ((TextInput.new nel lsps).ctl, []) evs = kt at *
  generalize segAll U ((TextInput.new nel lsps).ctl, []) ([], []) evs = S at *
  simp only [segAll]
  rw [h1, h2]
  have hgrow := absorb_grows (U := U) kt s .end_
  rw [h1] at hgrow
  have hset : (absorb U kt s .end_).2 = [] ∨ (absorb U kt s .end_).2.getLast? = some '\n' := hset.2
  rw [hgrow, ← htot] at hset
  -- the first source
  have hcut : (cut S.1 (S.2 ++ (oc ++ f))).1.flatMap (normChain U) = S.1.flatMap (normChain U) ++ normChain U (S.2 ++ (oc ++ f)) := by
    rcases List.eq_nil_or_concat (S.2 ++ (oc ++ f)) with h0 | ⟨w, d, h0⟩
    · rw [h0, cut_idle (by simp), normChain_nil, List.append_nil]
    · rw [List.concat_eq_append] at h0
      rw [List.append_assoc, h0] at hset
      have hd : d = '\n' := by
        rcases hset with h | h
        · simp at h
        · rw [← List.append_assoc, List.getLast?_concat] at h
          exact Option.some.inj h
      subst hd
      rw [h0, cut, lastBoundary_concat w (by decide)]
      simp only [List.take_length, List.flatMap_append, List.flatMap_cons, List.flatMap_nil, List.append_nil]
  obtain ⟨R, hR⟩ := segAll_more (U := U) more (absorb U kt s' st') (cut S.1 (S.2 ++ (oc ++ z)))
  rw [hR, hcut, List.flatMap_append]
  rcases last_line (S.2 ++ oc) with hq | ⟨x, y, hq, hy⟩
  · obtain ⟨R', hR'⟩ : ∃ R', (cut S.1 (S.2 ++ (oc ++ z))).1 = S.1 ++ R' := by
      unfold cut
      split
      · exact ⟨[], by simp⟩
      · exact ⟨_, rfl⟩
    rw [hR', List.flatMap_append]
    refine ⟨S.1.flatMap (normChain U), _, R'.flatMap (normChain U) ++ R.flatMap (normChain U), rfl, by rw [List.append_assoc], ?_⟩
    apply newline_last hU
    rw [← List.append_assoc]
    cases f with
    | nil => rw [List.append_nil]; exact fun h => hq (List.dropLast_subset _ h)
    | cons a f =>
      rw [List.dropLast_append_of_ne_nil (by simp)]
      simp only [List.mem_append, not_or] at hq ⊢
      exact ⟨hq, hf⟩
  · rw [← List.append_assoc, hq, List.append_assoc, List.cons_append, ← List.append_assoc S.2, hq, List.append_assoc, List.cons_append]
    obtain ⟨v', r, hv, -⟩ := cut_newline S.1 x (y ++ z)
    rw [hv, normChain_split hU (inert_lf hU) (nl_assigned hU) (by decide)]
    refine ⟨S.1.flatMap (normChain U) ++ (normChain U x ++ ['\n']), normChain U (y ++ f), normChain U v' ++ R.flatMap (normChain U), by simp, ?_, ?_⟩
    · simp only [List.flatMap_append, List.flatMap_cons, List.flatMap_nil, List.append_nil]
      rw [normChain_split hU (inert_lf hU) (nl_assigned hU) (by decide)]
      simp
    · apply newline_last hU
      cases f with
      | nil => rw [List.append_nil]; exact fun h => hy (List.dropLast_subset _ h)
      | cons a f =>
        rw [List.dropLast_append_of_ne_nil (by simp)]
        simp only [List.mem_append, not_or]
        exact ⟨hy, hf⟩

/-- The common part may be taken to be whole lines. -/
theorem early_lines {c t t' a b : List Char} (ha : a = c ++ t) (hb : b = c ++ t') (h : '\n' ∉ t.dropLast) :
    ∃ c t t', a = c ++ t ∧ b = c ++ t' ∧ '\n' ∉ t.dropLast ∧ (c = [] ∨ c.getLast? = some '\n') := by
  have key : ∀ v : List Char, '\n' ∉ v → '\n' ∉ (v ++ t).dropLast := by
    intro v hv
    cases t with
    | nil => rw [List.append_nil]; exact fun h => hv (List.dropLast_subset _ h)
    | cons d t =>
      rw [List.dropLast_append_of_ne_nil (by simp)]
      simp only [List.mem_append, not_or]
      exact ⟨hv, h⟩
  rcases last_line c with hc | ⟨x, y, rfl, hy⟩
  · exact ⟨[], c ++ t, c ++ t', ha, hb, key c hc, .inl rfl⟩
  · exact ⟨x ++ ['\n'], y ++ t, y ++ t', by simp [ha], by simp [hb], key y hy, .inr (by simp)⟩

/-! ## Bytes -/

theorem feedBytesGo_rest : ∀ (n : Nat) (b : Bytes), b.length ≤ n →
    (feedBytesGo n b).2 = [] ∨ (incomplete (feedBytesGo n b).2 = true ∧ decode1 (feedBytesGo n b).2 = none) := by
  intro n
  induction n with
  | zero => intro b h; left; simp only [feedBytesGo]; exact List.length_eq_zero_iff.1 (by omega)
  | succ n ih =>
    intro b hl
    simp only [feedBytesGo]
    cases hd : decode1 b with
    | some p =>
      obtain ⟨c, r⟩ := p
      have := decode1_shorter hd
      exact ih r (by omega)
    | none =>
      simp only
      by_cases hb : b = []
      · subst hb; simp
      · rw [if_neg hb]
        have h1 := badLen_pos hb
        by_cases hi : incomplete b = true
        · rw [if_pos hi]; exact .inr ⟨hi, hd⟩
        · rw [if_neg hi]; exact ih _ (by rw [List.length_drop]; omega)

theorem incomplete_first {b : Bytes} (h : incomplete b = true) : ∃ a r, b = a :: r ∧ 0xc2 ≤ a.toNat := by
  have hs : ∀ {a y : UInt8}, secondOk a y = true → 0xc2 ≤ a.toNat ∧ a.toNat ≤ 0xf4 := fun h => by have := secondOk_cont h; omega
  match b, h with
  | [a], h => exact ⟨a, [], rfl, by simp only [incomplete, Bool.and_eq_true, decide_eq_true_eq] at h; exact h.1⟩
  | [a, b], h => exact ⟨a, [b], rfl, (hs h).1⟩
  | [a, b, c], h => exact ⟨a, [b, c], rfl, by simp only [incomplete, Bool.and_eq_true] at h; exact (hs h.1).1⟩

theorem incomplete_lossy {b : Bytes} (h : incomplete b = true) (hd : decode1 b = none) : utf8Lossy b = ['�'] := by
  have hl : badLen b = b.length := by
    match b, h with
    | [a], _ => rfl
    | [a, b], h => simp only [incomplete] at h; simp [badLen, h]
    | [a, b, c], h =>
      simp only [incomplete, Bool.and_eq_true, decide_eq_true_eq] at h
      simp only [badLen, h.1, h.2.2, if_true, List.length_cons, List.length_nil]
      rw [if_neg (by omega)]
  obtain ⟨a, r, rfl, -⟩ := incomplete_first h
  unfold utf8Lossy
  rw [List.length_cons, lossyGo, hd]
  simp only [reduceCtorEq, if_false]
  rw [hl, List.drop_length]
  cases r.length with
  | zero => rfl
  | succ n => simp [lossyGo, decode1]

theorem lossy_first {κ x : Bytes} (h : incomplete κ = true) : ∃ c w, utf8Lossy (κ ++ x) = c :: w ∧ c ≠ '\n' := by
  obtain ⟨a, r, rfl, ha⟩ := incomplete_first h
  unfold utf8Lossy
  rw [List.cons_append, List.length_cons, lossyGo]
  cases hd : decode1 (a :: (r ++ x)) with
  | none => exact ⟨'�', _, rfl, by decide⟩
  | some p =>
    obtain ⟨c, q⟩ := p
    refine ⟨c, _, rfl, ?_⟩
    rintro rfl
    have := decode1_some hd
    rw [show encodeChar '\n' = [10] by decide] at this
    simp only [List.cons_append, List.nil_append, List.cons.injEq] at this
    rw [this.1] at ha
    exact absurd ha (by decide)

/-! ## The last scalar of a source that breaks off inside one -/

theorem absorb_started_false (kt : Ctl × List Char) (s : List Char) (st : Status) : (absorb U kt s st).1.atStart = false := by
  have h : (processRaw U kt.1 s).1.atStart = false := by
    unfold processRaw; exact feed_start_false _ rfl
  unfold absorb
  simp only
  split
  · exact h
  · unfold finish finishState
    simp only
    repeat' split
    all_goals simp_all

theorem start_state (nel lsps : Bool) (evs : List Event) (h : (absorbAll U ((TextInput.new nel lsps).ctl, []) evs).1.atStart = true) :
    (absorbAll U ((TextInput.new nel lsps).ctl, []) evs).1.state = .ground true := by
  have key : ∀ (evs : List Event) (kt : Ctl × List Char), (kt.1.atStart = true → kt.1.state = .ground true) →
      (absorbAll U kt evs).1.atStart = true → (absorbAll U kt evs).1.state = .ground true := by
    intro evs
    induction evs with
    | nil => intro kt hk; exact hk
    | cons e evs ih =>
      intro kt hk
      cases e with
      | err => exact ih kt hk
      | data s st => exact ih _ fun h => absurd h (by rw [absorb_started_false]; simp)
  exact key evs _ (fun _ => rfl) h

/-- A replacement character behind a state makes no newline, unless CR is waiting. -/
theorem step_mark (k : Ctl) (h : k.state ≠ .cr) : '\n' ∉ (stepChar U k '�').2 := by
  have hr : replace '�' = ['�'] := by decide +kernel
  have hg : ∀ k : Ctl, '\n' ∉ (groundStep U k '�').2 := by
    intro k
    unfold groundStep
    rw [if_neg (by decide), if_neg (by decide), if_neg (by decide), if_neg (by decide)]
    have hn : ((k.nel && '�' == NEL) || (k.lsps && ('�' == LS || '�' == PS))) = false := by
      rw [show ('�' == NEL) = false by decide, show ('�' == LS) = false by decide, show ('�' == PS) = false by decide]; simp
    simp only [hn, Bool.false_eq_true, if_false, hr]
    unfold startGuard
    split <;> decide
  unfold stepChar
  split
  · exact hg _
  · contradiction
  · simp only
    rw [if_pos (by decide), if_pos (by decide)]
    simp only [List.mem_append, not_or]
    exact ⟨by decide, hg _⟩
  all_goals
    (repeat' split) <;> first | exact hg _ | simp

/-- What has come breaks off inside a scalar: a replacement character stands for it. -/
theorem early_mark (k : Ctl) (u : List Char) (c : Char) (w : List Char) (hc : c ≠ '\n') (hk : k.atStart = true → k.state = .ground true) :
    ∃ oc d z, (processRaw U k (u ++ ['�'])).2 = oc ++ d ∧ '\n' ∉ d ∧ (processRaw U k (u ++ c :: w)).2 = oc ++ z := by
  have split2 : ∀ (k : Ctl) (x : List Char), ∃ oc d z, (feed U k (x ++ ['�'])).2 = oc ++ d ∧ '\n' ∉ d ∧ (feed U k (x ++ c :: w)).2 = oc ++ z := by
    intro k x
    rw [feed_append, feed_append]
    generalize (feed U k x).1 = k1
    generalize (feed U k x).2 = o1
    simp only [feed, List.append_nil]
    by_cases hcr : k1.state = .cr
    · have h1 : ∀ e : Char, e ≠ '\n' → ∃ r, (stepChar U k1 e).2 = '\n' :: r ∧ r = (groundStep U { k1 with state := .ground true, expectStarter := false } e).2 := by
        intro e he
        unfold stepChar
        rw [hcr]
        simp only
        rw [if_pos he]
        exact ⟨_, rfl, rfl⟩
      obtain ⟨r, e1, e1'⟩ := h1 '�' (by decide)
      obtain ⟨r', e2, -⟩ := h1 c hc
      refine ⟨o1 ++ ['\n'], r, r' ++ (feed U (stepChar U k1 c).1 w).2, by rw [e1]; simp, ?_, by rw [e2]; simp⟩
      rw [e1']
      have := step_mark (U := U) { k1 with state := .ground true, expectStarter := false } (by simp)
      simpa [stepChar] using this
    · exact ⟨o1, (stepChar U k1 '�').2, _, rfl, step_mark k1 hcr, rfl⟩
  cases u with
  | nil =>
    by_cases hb : k.atStart = true ∧ c = BOM
    · have h1 : processRaw U k ([] ++ ['�']) = stepChar U { k with atStart := false } '�' := by
        rw [List.nil_append, processRaw_plain (by decide), ← feed_one]
      exact ⟨[], _, _, by rw [h1]; rfl, step_mark _ (by simp [hk hb.1]), rfl⟩
    · have h1 : processRaw U k ([] ++ ['�']) = feed U { k with atStart := false } ([] ++ ['�']) := processRaw_plain (by decide)
      have h2 : processRaw U k ([] ++ c :: w) = feed U { k with atStart := false } ([] ++ c :: w) := by
        unfold processRaw
        rw [if_neg (by simpa using hb)]
      rw [h1, h2]
      exact split2 _ []
  | cons e u =>
    cases hb : (k.atStart && (some e == some BOM)) with
    | true =>
      have h1 : ∀ r, processRaw U k (e :: r) = feed U { k with atStart := false } r := fun r => by
        show feed U _ (if (k.atStart && (some e == some BOM)) = true then r else e :: r) = _
        rw [hb]; rfl
      rw [List.cons_append, List.cons_append, h1, h1]
      exact split2 _ u
    | false =>
      have h1 : ∀ r, processRaw U k (e :: r) = feed U { k with atStart := false } (e :: r) := fun r => by
        show feed U _ (if (k.atStart && (some e == some BOM)) = true then r else e :: r) = _
        rw [hb]; rfl
      rw [List.cons_append, List.cons_append, h1, h1]
      exact split2 _ (e :: u)

end Verif
