import Verif.LockstepMap
import Verif.Props.Tables
import Verif.DocSpec
import Verif.Props.Lossless

/-!
# C123: replacing beforehand what the reader would replace
-/

namespace Verif
open Ucd Spec Tables

namespace Spec

/-- The Sequence Table replaces the single scalar `c` by `l`.  Not among them here: ESC and U+FEFF, whose treatment depends on the place, the CJK compatibility
ideographs and the other scalars that the crate leaves to the normalization, and U+FB03 (C57). -/
def Row (c : Char) (l : List Char) : Prop :=
  docRow c = some l ∧ c ≠ ESC ∧ c ≠ BOM ∧ inRanges docCjk c.toNat = false ∧ c ∉ ['\u0f77', '\u0f79', '\u2126', '\u212a', '\u212b', '\ufb03']

instance (c : Char) (l : List Char) : Decidable (Row c l) := inferInstanceAs (Decidable (_ ∧ _))

/-- Some scalars are replaced by what the Sequence Table says, the others left; newlines of the compatibility mode are left too. -/
def Prepared (nel lsps : Bool) (f : Char → List Char) : Prop :=
  ∀ c, f c = [c] ∨ Row c (f c) ∧ (nel = true → c ≠ NEL) ∧ (lsps = true → c ≠ LS ∧ c ≠ PS)

end Spec

theorem row_facts {c : Char} {l : List Char} (h : Row c l) :
    replace c = l ∧ c ≠ '\r' ∧ c ≠ FF ∧ c ≠ '\n' ∧ (∀ d ∈ l, okChar d = true ∧ d ≠ '\n') ∧ l ≠ [] := by
  obtain ⟨h1, h2, h3, h4, h5⟩ := h
  have ho : oddRow c.toNat = false := by
    rw [Bool.eq_false_iff]
    intro ho
    simp only [oddRow, Bool.or_eq_true, ohmN_iff, beq_iff] at ho
    apply h5
    have : c = '\u0f77' ∨ c = '\u0f79' ∨ c = '\u2126' ∨ c = '\u212a' ∨ c = '\u212b' ∨ c = '\ufb03' := by
      simp only [← Char.toNat_inj]
      show c.toNat = 0xf77 ∨ c.toNat = 0xf79 ∨ c.toNat = 0x2126 ∨ c.toNat = 0x212a ∨ c.toNat = 0x212b ∨ c.toNat = 0xfb03
      omega
    simpa using this
  have hr := c57_row_exact_partial c l h1 h2 h4 ho
  have hno : ∀ d, docRow d = none → c ≠ d := fun d hd e => by rw [e, hd] at h1; simp at h1
  have hn : c ≠ '\n' := hno _ (by decide +kernel)
  refine ⟨hr, hno _ (by decide +kernel), hno _ (by decide +kernel), hn, fun d hd => ⟨?_, fun e => ?_⟩, fun e => ?_⟩
  · unfold docRow at h1
    cases hv : docRowN c.toNat with
    | none => rw [hv, h4] at h1; simp at h1
    | some v =>
      rw [hv] at h1
      obtain rfl := Option.some.inj h1
      obtain ⟨n, hn, rfl⟩ := List.mem_map.1 hd
      unfold docRowN at hv
      rw [Option.map_eq_some_iff] at hv
      obtain ⟨r, k1, rfl⟩ := hv
      have := List.all_eq_true.1 (List.all_eq_true.1 rows_ok r (List.mem_of_find?_eq_some k1)) n hn
      rw [Bool.and_eq_true] at this
      rw [okChar_iff, toNat_ofNat this.2, this.1]
  · have := replace_no_nl c hn
    rw [hr, List.count_eq_zero] at this
    exact this (e ▸ hd)
  · exact (c46_replacement c).1 (hr.trans e)

variable {U : Ucd}

theorem ground_ok {k : Ctl} {d : Char} (h : okChar d = true) (hn : d ≠ '\n') :
    groundStep U k d = ({ k with state := .ground false, expectStarter := false }, startGuard U k.expectStarter [d]) := by
  have key : ∀ x : Char, okChar x = false → d ≠ x := fun x hx e => by rw [← e, h] at hx; simp at hx
  have g1 := key NEL (by decide +kernel)
  have g2 := key LS (by decide +kernel)
  have g3 := key PS (by decide +kernel)
  unfold groundStep
  rw [if_neg hn, if_neg (key '\r' (by decide +kernel)), if_neg (key FF (by decide +kernel)), if_neg (key ESC (by decide +kernel))]
  rw [beq_eq_false_iff_ne.2 g1, beq_eq_false_iff_ne.2 g2, beq_eq_false_iff_ne.2 g3]
  simp [replace_ok (ok_check h)]

theorem ground_row {k : Ctl} {c : Char} {l : List Char} (h : Row c l) (h1 : k.nel = true → c ≠ NEL) (h2 : k.lsps = true → c ≠ LS ∧ c ≠ PS) :
    groundStep U k c = ({ k with state := .ground false, expectStarter := false }, startGuard U k.expectStarter l) := by
  obtain ⟨e, r1, r2, r3, -, -⟩ := row_facts h
  unfold groundStep
  rw [if_neg r3, if_neg r1, if_neg r2, if_neg h.2.1]
  have : ((k.nel && c == NEL) || (k.lsps && (c == LS || c == PS))) = false := by
    rw [Bool.or_eq_false_iff, Bool.and_eq_false_iff, Bool.and_eq_false_iff]
    constructor
    · cases hn : k.nel with
      | false => exact .inl rfl
      | true => exact .inr (beq_eq_false_iff_ne.2 (h1 hn))
    · cases hn : k.lsps with
      | false => exact .inl rfl
      | true => exact .inr (by rw [beq_eq_false_iff_ne.2 (h2 hn).1, beq_eq_false_iff_ne.2 (h2 hn).2]; rfl)
  simp [this, e]

/-- In the middle of a line the scalars of the replacement go into the queue as they are. -/
theorem feed_rest : ∀ {r : List Char} {k : Ctl}, k.state = .ground false → k.expectStarter = false → (∀ d ∈ r, okChar d = true ∧ d ≠ '\n') →
    feed U k r = (k, r) := by
  intro r
  induction r with
  | nil => intros; rfl
  | cons d r ih =>
    intro k h1 h2 h3
    have hk : ({ k with state := .ground false, expectStarter := false } : Ctl) = k := by
      cases k; simp_all
    rw [feed, stepChar, h1]
    simp only
    rw [ground_ok (h3 d (by simp)).1 (h3 d (by simp)).2, hk]
    simp only
    rw [ih h1 h2 fun x hx => h3 x (by simp [hx])]
    simp [startGuard, h2]

theorem guard_cons (e : Bool) (d : Char) (r : List Char) : startGuard U e (d :: r) = startGuard U e [d] ++ r := by
  unfold startGuard
  cases e with
  | false => rfl
  | true => cases h : isStart U d <;> simp [h]

theorem ground_feed {k : Ctl} {d : Char} {r : List Char} (h : ∀ x ∈ d :: r, okChar x = true ∧ x ≠ '\n') :
    ((feed U (groundStep U k d).1 r).1, (groundStep U k d).2 ++ (feed U (groundStep U k d).1 r).2) =
      ({ k with state := .ground false, expectStarter := false }, startGuard U k.expectStarter (d :: r)) := by
  rw [ground_ok (h d (by simp)).1 (h d (by simp)).2]
  simp only
  rw [feed_rest rfl rfl fun x hx => h x (by simp [hx])]
  rw [guard_cons (d := d) (r := r)]

/-- Outside escape sequences, the replacement takes the reader the way the scalar does. -/
theorem row_same {k : Ctl} {c : Char} {l : List Char} (hk : (∃ g, k.state = .ground g) ∨ k.state = .cr ∨ k.state = .ff) (h : Row c l)
    (h1 : k.nel = true → c ≠ NEL) (h2 : k.lsps = true → c ≠ LS ∧ c ≠ PS) : feed U k l = stepChar U k c := by
  obtain ⟨-, r1, r2, r3, r4, r5⟩ := row_facts h
  cases l with
  | nil => exact absurd rfl r5
  | cons d r =>
    have hd := r4 d (by simp)
    have key : ∀ x : Char, okChar x = false → d ≠ x := fun x hx e => by rw [← e, hd.1] at hx; simp at hx
    have d1 := key FF (by decide +kernel)
    have d2 := key '\r' (by decide +kernel)
    rw [feed]
    rcases hk with ⟨g, hk⟩ | hk | hk
    · rw [stepChar, stepChar, hk]
      simp only
      rw [ground_row h h1 h2]
      exact ground_feed r4
    · rw [stepChar, stepChar, hk]
      simp only
      rw [if_pos hd.2, if_pos r3, ground_row (k := { k with state := .ground true, expectStarter := false }) h h1 h2]
      have := ground_feed (U := U) (k := { k with state := .ground true, expectStarter := false }) r4
      simp only [Prod.mk.injEq] at this
      simp only [List.cons_append]
      rw [this.1, this.2]
    · rw [stepChar, stepChar, hk]
      simp only
      rw [if_pos d1, if_pos r2, ground_row (k := { k with state := .ground false, expectStarter := false }) h h1 h2]
      have := ground_feed (U := U) (k := { k with state := .ground false, expectStarter := false }) r4
      simp only [Prod.mk.injEq] at this
      simp only [List.append_assoc]
      rw [this.1, this.2]
      simp [hd.2, d2, r3, r1]

/-- The control states of a reader outside escape sequences. -/
def Calm (nel lsps : Bool) (k : Ctl) : Prop :=
  k.nel = nel ∧ k.lsps = lsps ∧ ((∃ g, k.state = .ground g) ∨ k.state = .cr ∨ k.state = .ff)

theorem substitutes_rows {nel lsps : Bool} {f : Char → List Char} (h : Prepared nel lsps f) : Substitutes U f (· ≠ ESC) (Calm nel lsps) where
  expect := fun _ h => h
  started := fun h => h
  step := by
    rintro k c ⟨h1, h2, h3⟩ hc
    obtain ⟨m1, m2⟩ := stepChar_modes (U := U) k c
    exact ⟨m1.trans h1, m2.trans h2, (step_outside h3 hc).1⟩
  finish := by
    rintro k b st ⟨h1, h2, h3⟩
    obtain ⟨m1, m2⟩ := finish_modes k b st
    exact ⟨m1.trans h1, m2.trans h2, .inl (finish_ground k b st)⟩
  same := by
    rintro k c ⟨h1, h2, h3⟩ hc
    rcases h c with e | ⟨hr, g1, g2⟩
    · rw [e, feed_one]
    · exact row_same h3 hr (by rw [h1]; exact g1) (by rw [h2]; exact g2)
  mark := by
    rcases h BOM with e | ⟨hr, -⟩
    · exact e
    · exact absurd rfl hr.2.2.1
  other := by
    intro c _ hb
    rcases h c with e | ⟨hr, -⟩
    · exact ⟨c, [], e, hb⟩
    · obtain ⟨-, -, -, -, r4, r5⟩ := row_facts hr
      revert r4 r5
      cases f c with
      | nil => exact fun _ r5 => absurd rfl r5
      | cons d r =>
        intro r4 _
        exact ⟨d, r, rfl, fun e => absurd (r4 d (by simp)).1 (by rw [e]; decide +kernel)⟩

/-- C123: if in a source without ESC some of the scalars of the Sequence Table are replaced by what the table says, before they are read, then every
call on the reader returns what it would have returned, whatever the source does (pushes and errors included) and whatever the buffers. -/
theorem c123_prepared (nel lsps : Bool) (f : Char → List Char) (hf : Prepared nel lsps f) (src : List Event) (hs : ∀ s, Reads src s → ESC ∉ s)
    (lens : List Nat) :
    (readMany ucd15 lens (.new nel lsps) (src.map (Event.subst f))).map (fun r => (r.ret, r.out)) =
    (readMany ucd15 lens (.new nel lsps) src).map (fun r => (r.ret, r.out)) :=
  (substitutes_rows hf).readMany nel lsps ⟨rfl, rfl, .inl ⟨true, rfl⟩⟩ src (fun s h _ hc e => hs s h (e ▸ hc)) lens

/-- Everything that can be prepared. -/
def prepareAll (c : Char) : List Char := match docRow c with
  | some l => if Row c l ∧ c ≠ NEL ∧ c ≠ LS ∧ c ≠ PS then l else [c]
  | none => [c]

theorem prepareAll_prepared (nel lsps : Bool) : Prepared nel lsps prepareAll := by
  intro c
  unfold prepareAll
  cases docRow c with
  | none => exact .inl rfl
  | some l =>
    simp only
    split
    · rename_i h; exact .inr ⟨h.1, fun _ => h.2.1, fun _ => h.2.2⟩
    · exact .inl rfl

example : (script [['a', '\x00', 'ﬁ'], ['\r']] ['ٳ', '῿']).map (Event.subst prepareAll) =
    script [['a', '�', 'f', 'i'], ['\r']] ['ا', 'ٟ', '῿'] := by decide +kernel

/-- Some scalars beyond ASCII that the Sequence Table replaces by one scalar beyond ASCII are replaced so, the others left. -/
def PreparedAnywhere (f : Char → List Char) : Prop :=
  ∀ c, f c = [c] ∨ ∃ d, f c = [d] ∧ Row c [d] ∧ 0x7f < c.toNat ∧ 0x7f < d.toNat

theorem step_beyond {k : Ctl} {c : Char} (h : 0x7f < c.toNat) :
    stepChar U k c = match k.state with
      | .ground _ => groundStep U k c
      | .cr => ((groundStep U { k with state := .ground true, expectStarter := false } c).1,
          '\n' :: (groundStep U { k with state := .ground true, expectStarter := false } c).2)
      | .ff => ((groundStep U { k with state := .ground false, expectStarter := false } c).1,
          ' ' :: (groundStep U { k with state := .ground false, expectStarter := false } c).2)
      | .osc => (k, [])
      | _ => groundStep U { k with state := .ground false } c := by
  have key : ∀ d : Char, d.toNat ≤ 0x7f → c ≠ d := fun d hd e => by rw [e] at h; omega
  have kb : ∀ a b, b ≤ 0x7f → between a b c = false := by
    intro a b hb
    unfold between
    rw [Bool.and_eq_false_iff]
    exact .inr (decide_eq_false (by omega))
  have e1 := key '\n' (by decide)
  have e2 := key FF (by decide)
  have e3 := key '\r' (by decide)
  have e4 := key '[' (by decide)
  have e5 := key ']' (by decide)
  have e6 := key ESC (by decide)
  have e7 := key CAN (by decide)
  have e8 := key BEL (by decide)
  unfold stepChar
  cases hk : k.state <;> simp [e1, e2, e3, e4, e5, e6, e7, e8, kb]

theorem single_same {k : Ctl} {c d : Char} (h : Row c [d]) (hc : 0x7f < c.toNat) (hd : 0x7f < d.toNat) : feed U k [d] = stepChar U k c := by
  have hg : ∀ k : Ctl, groundStep U k d = groundStep U k c := by
    intro k
    obtain ⟨-, -, -, -, r4, -⟩ := row_facts h
    have h4 := r4 d (by simp)
    rw [ground_ok h4.1 h4.2, ground_row h (fun _ e => ?_) (fun _ => ⟨fun e => ?_, fun e => ?_⟩)]
    all_goals
      subst e
      have h := h.1
      rw [show docRow _ = some [' '] by decide +kernel] at h
      have := Option.some.inj h
      have : ' ' = d := by simpa using this
      rw [← this] at hd
      exact absurd hd (by decide)
  rw [feed_one, step_beyond hc, step_beyond hd]
  cases k.state <;> simp only [hg]

/-- C123: in any source, escape sequences included, the same goes for scalars beyond ASCII that are replaced by one scalar beyond ASCII. -/
theorem c123_anywhere (nel lsps : Bool) (f : Char → List Char) (hf : PreparedAnywhere f) (src : List Event) (lens : List Nat) :
    (readMany ucd15 lens (.new nel lsps) (src.map (Event.subst f))).map (fun r => (r.ret, r.out)) =
    (readMany ucd15 lens (.new nel lsps) src).map (fun r => (r.ret, r.out)) := by
  have h : Substitutes ucd15 f (fun _ => True) (fun _ => True) :=
    { expect := fun _ h => h
      started := fun h => h
      step := fun _ _ => trivial
      finish := fun _ => trivial
      same := by
        intro k c _ _
        rcases hf c with e | ⟨d, e, hr, h1, h2⟩
        · rw [e, feed_one]
        · rw [e]; exact single_same hr h1 h2
      mark := by
        rcases hf BOM with e | ⟨d, -, hr, -⟩
        · exact e
        · exact absurd rfl hr.2.2.1
      other := by
        intro c _ hb
        rcases hf c with e | ⟨d, e, hr, -⟩
        · exact ⟨c, [], e, hb⟩
        · exact ⟨d, [], e, fun e => absurd ((row_facts hr).2.2.2.2.1 d (by simp)).1 (by rw [e]; decide +kernel)⟩ }
  exact h.readMany nel lsps trivial src (fun _ _ _ _ => trivial) lens

example : PreparedAnywhere fun c => if c = '‮' then ['�'] else [c] := by
  intro c
  simp only
  split
  · rename_i h; subst h; exact .inr ⟨'�', rfl, by decide +kernel, by decide, by decide⟩
  · exact .inl rfl

/-- `readToEnd` depends only on what the calls return. -/
theorem readToEnd_alike : ∀ (lens : List Nat) {t t' : TextInput} {src src' : List Event},
    (readMany U lens t' src').map (fun r => (r.ret, r.out)) = (readMany U lens t src).map (fun r => (r.ret, r.out)) →
    readToEnd U lens t' src' = readToEnd U lens t src := by
  intro lens
  induction lens with
  | nil => intros; rfl
  | cons len lens ih =>
    intro t t' src src' h
    simp only [readMany, List.map_cons, List.cons.injEq, Prod.mk.injEq] at h
    obtain ⟨⟨h1, h2⟩, h3⟩ := h
    simp only [readToEnd]
    rw [h1, h2, ih h3]

theorem subst_script (f : Char → List Char) (chunks : List (List Char)) (last : List Char) :
    (script chunks last).map (Event.subst f) = script (chunks.map (·.flatMap f)) (last.flatMap f) := by
  simp [script, Event.subst, Function.comp_def]

theorem flatten_subst (f : Char → List Char) (chunks : List (List Char)) : (chunks.map (·.flatMap f)).flatten = chunks.flatten.flatMap f := by
  induction chunks with
  | nil => rfl
  | cons c chunks ih => simp only [List.map_cons, List.flatten_cons, List.flatMap_append, ih]

/-- C123 for the lossy conversion of strings. -/
theorem c123_lossy (f : Char → List Char) (hf : Prepared false false f) (chunks : List (List Char)) (last : List Char)
    (hs : ESC ∉ chunks.flatten ++ last) (lens : List Nat) :
    fromTextLossy ucd15 (chunks.map (·.flatMap f)) (last.flatMap f) lens = fromTextLossy ucd15 chunks last lens := by
  have hr := c123_prepared false false f hf (script chunks last) (fun s ⟨st, h⟩ he => hs (by
    simp only [script, List.mem_append, List.mem_map, List.mem_singleton, Event.data.injEq] at h
    rcases h with ⟨c, hc, rfl, -⟩ | ⟨rfl, -⟩
    · exact List.mem_append_left _ (List.mem_flatten.2 ⟨c, hc, he⟩)
    · exact List.mem_append_right _ he)) lens
  rw [subst_script] at hr
  have hr := readToEnd_alike lens hr
  unfold script at hr
  unfold fromTextLossy
  rw [hr]
  cases readToEnd ucd15 lens (.new false false) (chunks.map (fun c => .data c .active) ++ [.data last .end_]) with
  | none => rfl
  | some text =>
    simp only
    rw [show (chunks.map (·.flatMap f)).flatten ++ last.flatMap f = (chunks.flatten ++ last).flatMap f by
      rw [List.flatMap_append, flatten_subst]]
    clear hr
    generalize chunks.flatten ++ last = s at hs
    have last : ∀ s : List Char, ESC ∉ s → (s.flatMap f = [] ↔ s = []) ∧ ∀ d, d = '\n' ∨ d = '\r' → ((s.flatMap f).getLast? = some d ↔ s.getLast? = some d) := by
      intro s hs
      rcases List.eq_nil_or_concat s with rfl | ⟨s, c, rfl⟩
      · simp
      · rw [List.concat_eq_append] at hs ⊢
        have hc : f c = [c] ∨ Row c (f c) := (hf c).imp id And.left
        have hne : f c ≠ [] := by
          rcases hc with e | e
          · rw [e]; simp
          · exact (row_facts e).2.2.2.2.2
        refine ⟨by simp [hne], fun d hd => ?_⟩
        rw [List.flatMap_append, List.flatMap_cons, List.flatMap_nil, List.append_nil, List.getLast?_append, List.getLast?_concat]
        have ho : ∀ o, (f c).getLast?.or o = (f c).getLast? := by
          intro o
          cases e : (f c).getLast? with
          | none => exact absurd (List.getLast?_eq_none_iff.1 e) hne
          | some z => rfl
        rw [ho]
        rcases hc with e | e
        · rw [e]; simp
        · obtain ⟨-, r1, r2, r3, r4, -⟩ := row_facts e
          constructor
          · intro h
            have hm := r4 d (List.mem_of_getLast? h)
            rcases hd with rfl | rfl
            · exact absurd rfl hm.2
            · exact absurd hm.1 (by decide +kernel)
          · intro h
            obtain rfl := Option.some.inj h
            rcases hd with rfl | rfl
            · exact absurd rfl r3
            · exact absurd rfl r1
    have core : ∀ s : List Char, ESC ∉ s → ∀ text : List Char,
        (if s.flatMap f ≠ [] ∧ (s.flatMap f).getLast? ≠ some '\n' ∧ (s.flatMap f).getLast? ≠ some '\r' then
          (if text.getLast? = some '\n' then some text.dropLast else none) else some text) =
        (if s ≠ [] ∧ s.getLast? ≠ some '\n' ∧ s.getLast? ≠ some '\r' then
          (if text.getLast? = some '\n' then some text.dropLast else none) else some text) := by
      intro s hs text
      obtain ⟨l1, l2⟩ := last s hs
      simp only [ne_eq, l1, l2 '\n' (.inl rfl), l2 '\r' (.inr rfl)]
    cases s with
    | nil => rfl
    | cons c s =>
      by_cases hb : c = BOM
      · subst hb
        have hm : f BOM = [BOM] := (substitutes_rows (U := ucd15) hf).mark
        rw [List.flatMap_cons, hm]
        simp only [lossyFinish, List.singleton_append, if_true]
        exact core s (fun h => hs (by simp [h])) _
      · obtain ⟨d, r, e, hd⟩ := (substitutes_rows (U := ucd15) hf).other (c := c) (fun h => hs (by simp [h])) hb
        have := core (c :: s) hs text
        simp only [List.flatMap_cons, e, List.cons_append] at this ⊢
        simp only [lossyFinish, if_neg hb, if_neg hd]
        exact this

example : fromTextLossy ucd15 [] ['a', '\x00', 'ﬁ'] [4096, 4096] = some ['a', '�', 'f', 'i'] ∧
    fromTextLossy ucd15 [] ['a', '�', 'f', 'i'] [4096, 4096] = some ['a', '�', 'f', 'i'] := by decide +kernel

/-- C123: the conditions are needed.  Behind ESC a letter is part of the sequence, so U+FB01 cannot be replaced by its letters beforehand;
nor can a BEL, which ends a sequence; nor U+85 with NEL compatibility. -/
theorem c123_refuted : output ucd15 false false (script [] ['\x1b', 'ﬁ']) [136] = ['f', 'i', '\n'] ∧
    output ucd15 false false (script [] ['\x1b', 'f', 'i']) [136] = ['i', '\n'] ∧
    output ucd15 false false (script [] ['\x1b', ']', '\x07', 'a']) [136] = ['a', '\n'] ∧
    output ucd15 false false (script [] ['\x1b', ']', '�', 'a']) [136] = ['\n'] ∧
    output ucd15 true false (script [] ['a', '\u0085']) [136] = ['a', '\n'] ∧
    output ucd15 true false (script [] ['a', ' ']) [136] = ['a', ' ', '\n'] := by decide +kernel

end Verif
