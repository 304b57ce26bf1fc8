import Verif.LossyWhole
import Verif.ExactCut
import Verif.ExactWhole

/-!
# At which places a read may end

Valid text is handed on read by read as it is, and each read makes the reader normalize everything up to the last U+A or U+34F so far. What
comes behind is then normalized by itself, which matters when it begins with an unassigned scalar.
-/

namespace Verif
open Ucd Spec
variable {U : Ucd}

/-- The part `p` of the text `s` ends inside the U+34F and the unassigned scalar that go together: the last U+A or U+34F of `p` is a U+34F,
and in `s` an unassigned scalar comes directly behind it. -/
def Spec.EndsInside (U : Ucd) (s p : List Char) : Prop :=
  ∃ a w u r, p = a ++ CGJ :: w ∧ s = a ++ CGJ :: u :: r ∧ isAssigned U u = false ∧ ∀ c ∈ w, c ≠ CGJ ∧ c ≠ '\n'

/-! ## Cutting -/

/-- The cuts made when the reads hand on `cs`. -/
def cutAll (S : List (List Char) × List Char) : List (List Char) → List (List Char) × List Char
  | [] => S
  | c :: cs => cutAll (cut S.1 (S.2 ++ c)) cs

theorem cut_cases (segs : List (List Char)) (q : List Char) :
    ((∀ c ∈ q, isBoundary c = false) ∧ cut segs q = (segs, q)) ∨
    ∃ x b y, q = x ++ b :: y ∧ isBoundary b = true ∧ (∀ c ∈ y, isBoundary c = false) ∧ cut segs q = (segs ++ [x ++ [b]], y) := by
  have h1 := cut_rest segs q
  have h2 := cut_flatten ([] : List (List Char)) q
  have h3 := cut_seg (segs := []) (by simp) q
  unfold cut at *
  cases hl : lastBoundary q with
  | none =>
    rw [hl] at h1
    exact Or.inl ⟨h1, rfl⟩
  | some i =>
    rw [hl] at h1 h2 h3
    obtain ⟨x, b, e, hb⟩ := h3 (q.take i) (by simp)
    refine Or.inr ⟨x, b, q.drop i, ?_, hb, h1, ?_⟩
    · simp only [List.nil_append, List.flatten_cons, List.flatten_nil, List.append_nil] at h2
      rw [e] at h2
      simpa using h2.symm
    · simp only [e]

/-- The text does not begin with an unassigned scalar. -/
def HeadOk (U : Ucd) (s : List Char) : Prop := ∀ c ∈ s.head?, isAssigned U c = true

/-- After each read, what is not yet cut off does not begin with an unassigned scalar. -/
def FineCuts (U : Ucd) : List (List Char) × List Char → List (List Char) → Prop
  | _, [] => True
  | S, c :: cs => HeadOk U ((cut S.1 (S.2 ++ c)).2 ++ cs.flatten) ∧ FineCuts U (cut S.1 (S.2 ++ c)) cs

theorem pre_false_of {s : List Char} (h : Pre U true s) (hh : HeadOk U s) : Pre U false s := by
  cases s with
  | nil => trivial
  | cons c s =>
    refine ⟨fun hc => ?_, h.2⟩
    rw [hh c (by simp)] at hc
    simp at hc

theorem isolate_after {b : List Char} (h : Pre U false b) : isolateGo U true false b = b ∨ isolateGo U true false b = CGJ :: b := by
  cases b with
  | nil => exact Or.inr rfl
  | cons c b =>
    have hc : isAssigned U c = true := by
      cases hx : isAssigned U c with
      | true => rfl
      | false => exact absurd (h.1 hx) (by simp)
    unfold isolateGo
    by_cases e : c = CGJ
    · subst e
      left
      simp only [hc]
      have := isolateGo_pre h.2
      simpa using this
    · right
      have := h.2
      rw [beq_eq_false_iff_ne.2 e] at this
      simp [hc, e, isolateGo_pre this]

theorem normChain_open (hU : TextLaws U) {s : List Char} (hn : U.isNfcStreamSafe s = true) (hp : Pre U true s) (hh : ¬ HeadOk U s) :
    s.length + 1 ≤ (normChain U s).length := by
  have hi := hU.law.inert_cgj
  cases s with
  | nil => exact absurd (by intro c hc; simp at hc) hh
  | cons u b =>
    have hu : isAssigned U u = false := by
      cases h : isAssigned U u with
      | false => rfl
      | true => exact absurd (by intro c hc; simp at hc; subst hc; exact h) hh
    have hui := inert_of_not_assigned hU hu
    have hC : isAssigned U CGJ = true := by simp [isAssigned, hU.assigned_cgj]
    have huc : (u == CGJ) = false := by
      rw [beq_eq_false_iff_ne]; rintro rfl; rw [hC] at hu; simp at hu
    have h2 : Pre U false b := by
      have := hp.2
      rwa [huc] at this
    have hb : U.isNfcStreamSafe b = true := ((nss_inert hU.law hui (x := []) (y := b)).1 hn).2
    rw [normChain_eq, isolate, isolateGo]
    simp only [hu, Bool.not_false, Bool.and_self, Bool.or_true, if_true]
    rw [norm3_inert_cons hU hi, norm3_inert_cons hU hui]
    rcases isolate_after h2 with e | e <;> rw [e]
    · rw [norm3_of_nss hU hb]; simp
    · rw [norm3_inert_cons hU hi, norm3_of_nss hU hb]; simp

theorem pre_parts {x y : List Char} (h : Pre U true (x ++ y)) : Pre U true x ∧ Pre U true y := by
  obtain ⟨h1, h2⟩ := pre_append.1 h
  exact ⟨h1, h2.weaken⟩

/-- What the cuts make of text that a single read leaves alone: more than the text, unless after no read the rest begins with an unassigned
scalar. -/
theorem cutAll_length (hU : TextLaws U) (cs : List (List Char)) : ∀ S : List (List Char) × List Char,
    U.isNfcStreamSafe (S.2 ++ cs.flatten) = true → Pre U true (S.2 ++ cs.flatten) → (S.2 ++ cs.flatten = [] ∨ (S.2 ++ cs.flatten).getLast? = some '\n') →
    (∀ c ∈ S.2, isBoundary c = false) →
    ((HeadOk U (S.2 ++ cs.flatten) ∧ FineCuts U S cs) ∧ (cutAll S cs).1.flatMap (normChain U) = S.1.flatMap (normChain U) ++ (S.2 ++ cs.flatten)) ∨
    (¬ (HeadOk U (S.2 ++ cs.flatten) ∧ FineCuts U S cs) ∧
      (S.1.flatMap (normChain U)).length + (S.2 ++ cs.flatten).length + 1 ≤ ((cutAll S cs).1.flatMap (normChain U)).length) := by
  induction cs with
  | nil =>
    intro S hn hp hl hb
    simp only [List.flatten_nil, List.append_nil] at *
    have h0 : S.2 = [] := by
      rcases hl with h | h
      · exact h
      · have := hb _ (List.mem_of_mem_getLast? h)
        simp [isBoundary] at this
    refine Or.inl ⟨⟨?_, trivial⟩, ?_⟩
    · rw [h0]; intro c hc; simp at hc
    · simp [cutAll, h0]
  | cons c cs ih =>
    intro S hn hp hl hb
    simp only [List.flatten_cons, FineCuts, cutAll] at *
    rw [← List.append_assoc] at *
    rcases cut_cases S.1 (S.2 ++ c) with ⟨h1, h2⟩ | ⟨x, b, y, h1, h2, h3, h4⟩
    · rw [h2]
      have := ih (S.1, S.2 ++ c) hn hp hl h1
      simp only at this
      rcases this with ⟨⟨k1, k2⟩, k3⟩ | ⟨k1, k2⟩
      · exact Or.inl ⟨⟨k1, k1, k2⟩, k3⟩
      · exact Or.inr ⟨fun hh => k1 hh.2, k2⟩
    · rw [h4]
      rw [h1] at hn hp hl ⊢
      have e : x ++ b :: y ++ cs.flatten = (x ++ [b]) ++ (y ++ cs.flatten) := by simp
      rw [e] at hn hp hl ⊢
      obtain ⟨p1, p2⟩ := pre_parts hp
      have n1 := nss_prefix hU.law hn
      have n2 := nss_suffix hU.law hn
      have hl' : y ++ cs.flatten = [] ∨ (y ++ cs.flatten).getLast? = some '\n' := by
        rcases hl with h | h
        · simp at h
        · rw [List.getLast?_append] at h
          cases hg : (y ++ cs.flatten).getLast? with
          | none => exact Or.inl (List.getLast?_eq_none_iff.1 hg)
          | some d => rw [hg] at h; simp at h; exact Or.inr (by rw [h])
      have hk : HeadOk U (x ++ [b] ++ (y ++ cs.flatten)) ↔ HeadOk U (x ++ [b]) := by
        unfold HeadOk
        cases x <;> simp
      rw [hk]
      have hi := ih (S.1 ++ [x ++ [b]], y) n2 p2 hl' h3
      simp only [List.flatMap_append, List.flatMap_cons, List.flatMap_nil, List.append_nil, List.length_append] at hi ⊢
      by_cases ho : HeadOk U (x ++ [b])
      · have e2 : normChain U (x ++ [b]) = x ++ [b] := (normChain_eq_iff hU).2 ⟨n1, pre_false_of p1 ho⟩
        rw [e2] at hi
        rcases hi with ⟨k1, k2⟩ | ⟨k1, k2⟩
        · exact Or.inl ⟨⟨ho, k1⟩, by rw [k2]; simp⟩
        · exact Or.inr ⟨fun hh => k1 hh.2, by simp only [List.length_append] at k2; omega⟩
      · have e2 := normChain_open hU n1 p1 ho
        simp only [List.length_append] at e2
        refine Or.inr ⟨fun hh => ho hh.1, ?_⟩
        rcases hi with ⟨k1, k2⟩ | ⟨k1, k2⟩
        · rw [k2]; simp only [List.length_append]; omega
        · omega

/-! ## Where the rest begins -/

theorem boundary_iff {c : Char} : isBoundary c = false ↔ c ≠ CGJ ∧ c ≠ '\n' := by
  simp only [isBoundary, Bool.or_eq_false_iff, beq_eq_false_iff_ne]
  exact and_comm

/-- A place behind the last boundary is unique. -/
theorem last_boundary_unique {x x' y y' : List Char} {b b' : Char} (h : x ++ b :: y = x' ++ b' :: y') (hb : isBoundary b = true) (hb' : isBoundary b' = true)
    (hy : ∀ c ∈ y, isBoundary c = false) (hy' : ∀ c ∈ y', isBoundary c = false) : x = x' ∧ b = b' ∧ y = y' := by
  rcases List.append_eq_append_iff.1 h with ⟨m, e1, e2⟩ | ⟨m, e1, e2⟩
  · cases m with
    | nil => simp at e1 e2; exact ⟨e1.symm, e2⟩
    | cons d m =>
      simp only [List.cons_append, List.cons.injEq] at e2
      rw [hy b' (by rw [e2.2]; simp)] at hb'
      simp at hb'
  · cases m with
    | nil => simp at e1 e2; exact ⟨e1, e2.1.symm, e2.2.symm⟩
    | cons d m =>
      simp only [List.cons_append, List.cons.injEq] at e2
      rw [hy' b (by rw [e2.2]; simp)] at hb
      simp at hb

/-- After a read, the rest is that behind the last boundary of what has been read, or everything. -/
def RestOf (p : List Char) (S : List (List Char) × List Char) : Prop :=
  (∀ c ∈ S.2, isBoundary c = false) ∧ (S.2 = p ∨ ∃ x b, isBoundary b = true ∧ p = x ++ b :: S.2)

theorem restOf_cut {p : List Char} {S : List (List Char) × List Char} (h : RestOf p S) (c : List Char) : RestOf (p ++ c) (cut S.1 (S.2 ++ c)) := by
  obtain ⟨h1, h2⟩ := h
  rcases cut_cases S.1 (S.2 ++ c) with ⟨k1, k2⟩ | ⟨x, b, y, k1, k2, k3, k4⟩
  · rw [k2]
    refine ⟨k1, ?_⟩
    rcases h2 with h | ⟨x, b, hb, e⟩
    · exact Or.inl (by rw [h])
    · exact Or.inr ⟨x, b, hb, by rw [e]; simp⟩
  · rw [k4]
    refine ⟨k3, Or.inr ?_⟩
    rcases h2 with h | ⟨x', b', hb, e⟩
    · exact ⟨x, b, k2, by rw [← h, k1]⟩
    · exact ⟨x' ++ b' :: x, b, k2, by rw [e]; simp [k1]⟩

/-- The rest begins with an unassigned scalar exactly when the read ends inside. -/
theorem headOk_iff {p r : List Char} {S : List (List Char) × List Char} (h : RestOf p S) (hp : Pre U false (p ++ r)) :
    HeadOk U (S.2 ++ r) ↔ ¬ EndsInside U (p ++ r) p := by
  obtain ⟨h1, h2⟩ := h
  constructor
  · rintro hh ⟨a, w, u, r', e1, e2, e3, e4⟩
    rcases h2 with h | ⟨x, b, hb, e⟩
    · rw [h, e1] at h1
      have := h1 CGJ (by simp)
      simp [isBoundary] at this
    · rw [e1] at e
      obtain ⟨f1, f2, f3⟩ := last_boundary_unique e (by simp [isBoundary]) hb (fun c hc => boundary_iff.2 (e4 c hc)) h1
      rw [e1] at e2
      simp only [List.append_assoc, List.cons_append, List.append_cancel_left_eq, List.cons.injEq, true_and] at e2
      rw [← f3, e2] at hh
      rw [hh u (by simp)] at e3
      simp at e3
  · intro hn c hc
    cases ha : isAssigned U c with
    | true => rfl
    | false =>
      exfalso
      obtain ⟨r', er⟩ : ∃ r', S.2 ++ r = c :: r' := by
        cases hx : S.2 ++ r with
        | nil => rw [hx] at hc; simp at hc
        | cons d r' => rw [hx] at hc; simp at hc; exact ⟨r', by rw [hc]⟩
      rcases h2 with h | ⟨x, b, hb, e⟩
      · rw [← h, er] at hp
        exact absurd (hp.1 ha) (by simp)
      · have e0 : p ++ r = x ++ b :: c :: r' := by rw [e]; simp [er]
        rw [e0] at hp
        have := (pre_append.1 hp).2
        have hbc : b = CGJ := by simpa using this.2.1 ha
        subst hbc
        exact hn ⟨x, S.2, c, r', e, e0, ha, fun d hd => boundary_iff.1 (h1 d hd)⟩

theorem fineCuts_iff (cs : List (List Char)) : ∀ {p : List Char} {S : List (List Char) × List Char}, RestOf p S → Pre U false (p ++ cs.flatten) →
    (FineCuts U S cs ↔ ∀ i, i < cs.length → ¬ EndsInside U (p ++ cs.flatten) (p ++ (cs.take (i + 1)).flatten)) := by
  induction cs with
  | nil => intro p S _ _; simp [FineCuts]
  | cons c cs ih =>
    intro p S h hp
    have hr := restOf_cut h c
    simp only [List.flatten_cons] at hp ⊢
    rw [← List.append_assoc] at *
    rw [FineCuts, headOk_iff hr hp, ih hr hp]
    constructor
    · rintro ⟨h1, h2⟩ i hi
      cases i with
      | zero => simpa using h1
      | succ i =>
        have := h2 i (by simpa using hi)
        simpa using this
    · intro hh
      refine ⟨by simpa using hh 0 (by simp), fun i hi => ?_⟩
      have := hh (i + 1) (by simpa using hi)
      simpa using this

/-! ## Valid text is handed on as it is -/

/-- The state of the reader when the valid text `p` has been read. -/
def Follows (k : Ctl) (p : List Char) : Prop :=
  k.state = .ground (decide (p = [] ∨ p.getLast? = some '\n')) ∧ (k.expectStarter = true → p = [])

theorem feed_follows (s : List Char) : ∀ {k : Ctl} {p : List Char}, Follows k p → (∀ c ∈ s, okChar c = true) → (p = [] → ∀ c ∈ s.head?, isStart U c = true) →
    ∃ k', feed U k s = (k', s) ∧ Follows k' (p ++ s) := by
  induction s with
  | nil => intro k p h _ _; exact ⟨k, rfl, by simpa using h⟩
  | cons c s ih =>
    intro k p h hs hst
    have hc := hs c (by simp)
    have hsp := ok_not_special hc
    have hstep : ∃ k', stepChar U k c = (k', [c]) ∧ Follows k' (p ++ [c]) := by
      simp only [stepChar, h.1]
      unfold groundStep
      by_cases h1 : c = '\n'
      · subst h1
        exact ⟨_, by rw [if_pos rfl], by simp [Follows]⟩
      · rw [if_neg h1, if_neg hsp.1, if_neg hsp.2.1, if_neg hsp.2.2.1]
        have e : (k.nel && c == NEL || k.lsps && (c == LS || c == PS)) = false := by
          simp [hsp.2.2.2.1, hsp.2.2.2.2.1, hsp.2.2.2.2.2.1]
        simp only [e]
        refine ⟨_, Prod.ext rfl ?_, ?_⟩
        · simp only [Bool.false_eq_true, if_false]
          rw [replace_ok (ok_check hc)]
          unfold startGuard
          cases hx : k.expectStarter with
          | false => simp
          | true => simp [hst (h.2 hx) c (by simp)]
        · simp [Follows, h1]
    obtain ⟨k', e1, h1⟩ := hstep
    obtain ⟨k2, e2, h2⟩ := ih h1 (fun c h => hs c (by simp [h])) (by simp)
    refine ⟨k2, ?_, by simpa using h2⟩
    simp only [feed, e1, e2]; rfl

theorem processRaw_follows {k : Ctl} {p s : List Char} (h : Follows k p) (hs : ∀ c ∈ s, okChar c = true) (hst : p = [] → ∀ c ∈ s.head?, isStart U c = true) :
    ∃ k', processRaw U k s = (k', s) ∧ Follows k' (p ++ s) := by
  have e : (if k.atStart && s.head? == some BOM then s.tail else s) = s := by
    rw [if_neg]
    intro hb
    simp only [Bool.and_eq_true, beq_iff_eq] at hb
    exact (ok_not_special (hs BOM (List.mem_of_mem_head? hb.2))).2.2.2.2.2.2 rfl
  unfold processRaw
  simp only [e]
  exact feed_follows s (k := { k with atStart := false }) h hs hst

/-- The U+A a reader adds at the end of text that does not end with one. -/
def nlOf (s : List Char) : List Char := if s = [] ∨ s.getLast? = some '\n' then [] else ['\n']

theorem segAll_follows (chunks : List (List Char)) (last : List Char) : ∀ {k : Ctl} {p : List Char} (S : List (List Char) × List Char), Follows k p →
    (∀ c ∈ chunks.flatten ++ last, okChar c = true) → (p = [] → ∀ c ∈ (chunks.flatten ++ last).head?, isStart U c = true) →
    (∀ c ∈ (p ++ (chunks.flatten ++ last)).getLast?, isEnd c = true) →
    segAll U (k, p) S (script chunks last) = cutAll S (chunks ++ [last ++ nlOf (p ++ (chunks.flatten ++ last))]) := by
  induction chunks with
  | nil =>
    intro k p S h hs hst hnl
    simp only [List.flatten_nil, List.nil_append] at hs hst hnl
    obtain ⟨k', e, h'⟩ := processRaw_follows h hs hst
    have e2 : (absorb U (k, p) last .end_).2 = p ++ (last ++ nlOf (p ++ last)) := by
      simp only [absorb, e, finish, finishState, h'.1]
      have hg : endGuard (p ++ last).getLast? = [] := by
        cases hx : (p ++ last).getLast? with
        | none => rfl
        | some d =>
          have := hnl d (by rw [hx]; rfl)
          simp [endGuard, this]
      unfold nlOf
      by_cases hn : p ++ last = [] ∨ (p ++ last).getLast? = some '\n'
      · simp only [hn, decide_true, if_true]
        rw [List.getLast?_append] at hg
        simp [hg]
      · simp only [hn, decide_false, if_false]
        rw [List.getLast?_append] at hg
        simp [hg]
    simp [script, segAll, cutAll, e2]
  | cons c cs ih =>
    intro k p S h hs hst hnl
    simp only [List.flatten_cons, List.append_assoc] at hs hst hnl
    obtain ⟨k', e, h'⟩ := processRaw_follows (s := c) h (fun x hx => hs x (by simp [hx])) (fun hp x hx => hst hp x (by
      cases c with
      | nil => simp at hx
      | cons d c => simpa using hx))
    have e2 : absorb U (k, p) c .active = (k', p ++ c) := by simp [absorb, e]
    have := ih (cut S.1 (S.2 ++ c)) h' (fun x hx => hs x (by simp at hx ⊢; grind)) (fun hp x hx => by
      obtain ⟨h1, h2⟩ := List.append_eq_nil_iff.1 hp
      exact hst h1 x (by rw [h2]; exact hx)) (by simpa using hnl)
    simp only [script, List.map_cons, List.cons_append, segAll, e2, List.drop_left, cutAll]
    rw [List.append_assoc] at this
    rw [List.flatten_cons, List.append_assoc]
    exact this

theorem nlOf_last (s : List Char) : s ++ nlOf s = [] ∨ (s ++ nlOf s).getLast? = some '\n' := by
  unfold nlOf
  split
  · rename_i h; simpa using h
  · simp

/-- The added U+A does not matter for where a read ends. -/
theorem endsInside_nlOf (hU : TextLaws U) {s p : List Char} : EndsInside U (s ++ nlOf s) p ↔ EndsInside U s p := by
  unfold nlOf
  split
  · simp
  · constructor
    · rintro ⟨a, w, u, r, e1, e2, e3, e4⟩
      have hu : u ≠ '\n' := by rintro rfl; rw [nl_assigned hU] at e3; simp at e3
      rcases List.eq_nil_or_concat r with rfl | ⟨r', d, rfl⟩
      · have := congrArg List.getLast? e2
        simp at this
        exact absurd this.symm hu
      · rw [List.concat_eq_append] at e2
        have e2' : s ++ ['\n'] = (a ++ CGJ :: u :: r') ++ [d] := by simpa using e2
        exact ⟨a, w, u, r', e1, (List.append_inj' e2' rfl).1, e3, e4⟩
    · rintro ⟨a, w, u, r, e1, e2, e3, e4⟩
      exact ⟨a, w, u, r ++ ['\n'], e1, by rw [e2]; simp, e3, e4⟩

theorem pre_nlOf (hU : TextLaws U) {s : List Char} : Pre U false (s ++ nlOf s) ↔ Pre U false s := by
  rw [pre_append]
  refine ⟨fun h => h.1, fun h => ⟨h, pre_of_all fun c hc => ?_⟩⟩
  unfold nlOf at hc
  split at hc
  · simp at hc
  · simp at hc; rw [hc]; exact nl_assigned hU

/-- Valid text that a single read leaves alone is left alone by several exactly when none of them ends inside. -/
theorem reads_unchanged_iff (hU : TextLaws U) (nel lsps : Bool) (chunks : List (List Char)) (last : List Char) {s : List Char}
    (hs : chunks.flatten ++ last = s) (hv : isBasicText U s = true) (hp : Pre U false s)
    (lens : List Nat) (hc : Completes U nel lsps (script chunks last) lens) :
    output U nel lsps (script chunks last) lens = s ++ nlOf s ↔ ∀ i, i < chunks.length → ¬ EndsInside U s (chunks.take (i + 1)).flatten := by
  obtain ⟨r, n, h1, h2⟩ := hc
  have ho := (run_exact hU (ending_script chunks last) h1 h2).1
  obtain ⟨i1, i2, i3⟩ := text_iff.1 hv
  obtain ⟨i4, i5⟩ := substr_iff.1 i3
  have hseg : segments U nel lsps (script chunks last) = (cutAll ([], []) (chunks ++ [last ++ nlOf s])).1 := by
    unfold segments
    rw [segAll_follows chunks last ([], []) (k := (TextInput.new nel lsps).ctl) (p := []) (by simp [Follows, TextInput.new]) (by rw [hs]; exact i4)
      (fun _ => by rw [hs]; exact i1) (by rw [hs]; simpa using i2), List.nil_append, hs]
  have hnl := nlOf_last s
  have hfl : (chunks ++ [last ++ nlOf s]).flatten = s ++ nlOf s := by
    rw [List.flatten_append, List.flatten_singleton, ← List.append_assoc, hs]
  have hp' := (pre_nlOf hU).2 hp
  have hn' : U.isNfcStreamSafe (s ++ nlOf s) = true := by
    unfold nlOf
    split
    · simpa using i5
    · exact (nss_inert_concat hU.law (inert_lf hU)).2 i5
  have hr : RestOf [] (([], []) : List (List Char) × List Char) := ⟨by simp, Or.inl rfl⟩
  have hf := fineCuts_iff (U := U) (chunks ++ [last ++ nlOf s]) hr (by rw [List.nil_append, hfl]; exact hp')
  have hlen := cutAll_length hU (chunks ++ [last ++ nlOf s]) ([], []) (by rw [List.nil_append, hfl]; exact hn') (by rw [List.nil_append, hfl]; exact hp'.weaken)
    (by rw [List.nil_append, hfl]; exact hnl) (by simp)
  simp only [List.nil_append, hfl, List.flatMap_nil, List.length_nil, Nat.zero_add] at hlen hf
  have hhead : HeadOk U (s ++ nlOf s) := by
    intro c hc'
    cases hx : s ++ nlOf s with
    | nil => rw [hx] at hc'; simp at hc'
    | cons d s' =>
      rw [hx] at hc' hp'
      simp at hc'; subst hc'
      cases ha : isAssigned U d with
      | true => rfl
      | false => exact absurd (hp'.1 ha) (by simp)
  have hfine : FineCuts U ([], []) (chunks ++ [last ++ nlOf s]) ↔ ∀ i, i < chunks.length → ¬ EndsInside U s (chunks.take (i + 1)).flatten := by
    rw [hf]
    constructor
    · intro h i hi
      have := h i (by simp; omega)
      rwa [List.take_append_of_le_length (by omega), endsInside_nlOf hU] at this
    · intro h i hi
      by_cases hi' : i < chunks.length
      · rw [List.take_append_of_le_length (by omega), endsInside_nlOf hU]
        exact h i hi'
      · rw [List.take_of_length_le (by simp; omega), hfl]
        rintro ⟨a, w, u, r, e1, e2, e3, e4⟩
        rw [e1] at hnl
        rcases hnl with h0 | h0
        · simp at h0
        · cases hw : w.getLast? with
          | none =>
            rw [List.getLast?_eq_none_iff.1 hw] at h0
            simp [CGJ] at h0
          | some d =>
            have hd := e4 d (List.mem_of_mem_getLast? hw)
            rw [List.getLast?_append, List.getLast?_cons, hw] at h0
            simp at h0
            exact hd.2 h0
  rw [output, ho, hseg, ← hfine]
  rcases hlen with ⟨⟨-, k2⟩, k3⟩ | ⟨k1, k2⟩
  · exact ⟨fun _ => k2, fun _ => k3⟩
  · refine ⟨fun he => ?_, fun h => absurd ⟨hhead, h⟩ k1⟩
    rw [he] at k2
    omega

end Verif
