import Verif.Ucd15Text
import Verif.ReaderRuns
import Verif.WriterRuns

/-!
# How long the text can get

The chain isolate / CJK variants / stream-safe / NFC makes at most six scalars of one, and the reader at most eighteen.
-/

namespace Verif
open Ucd Tables

variable {U : Ucd}

/-! ## Normalization -/

theorem ins_length (x : Char) (l : List Char) : (U.ins x l).length = l.length + 1 := by
  induction l with
  | nil => rfl
  | cons y ys ih =>
    simp only [Ucd.ins]
    split
    · simp [ih]
    · simp

theorem reorder_length (l : List Char) : (U.reorder l).length = l.length := by
  induction l with
  | nil => rfl
  | cons x xs ih => simp [Ucd.reorder, ins_length, ih]

theorem recomp_length : ∀ (l : List Char) (k : Option Char) (last : Option Nat) (buf : List Char), (k = none → buf = []) →
    (U.recomp k last buf l).length ≤ k.toList.length + buf.length + l.length := by
  intro l
  induction l with
  | nil => intro k last buf h; cases k <;> simp [Ucd.recomp] <;> omega
  | cons ch r ih =>
    intro k last buf h
    cases k with
    | none =>
      have h0 := h rfl
      simp only [Ucd.recomp]
      split
      · have := ih none none [] (fun _ => rfl)
        simp at this ⊢; omega
      · have := ih (some ch) none [] (by simp)
        simp at this ⊢; omega
    | some k =>
      cases last with
      | none =>
        simp only [Ucd.recomp]
        split
        · rename_i k' _
          have := ih (some k') none buf (by simp)
          simp at this ⊢; omega
        · split
          · have := ih (some ch) none [] (by simp)
            simp at this ⊢; omega
          · have := ih (some k) (some (U.ccc ch)) (buf ++ [ch]) (by simp)
            simp at this ⊢; omega
      | some l' =>
        simp only [Ucd.recomp]
        split
        · split
          · have := ih (some ch) none [] (by simp)
            simp at this ⊢; omega
          · have := ih (some k) (some (U.ccc ch)) (buf ++ [ch]) (by simp)
            simp at this ⊢; omega
        · split
          · rename_i k' _
            have := ih (some k') (some l') buf (by simp)
            simp at this ⊢; omega
          · have := ih (some k) (some (U.ccc ch)) (buf ++ [ch]) (by simp)
            simp at this ⊢; omega

theorem nfc_length (s : List Char) : (U.nfc s).length ≤ (s.flatMap U.decomp).length := by
  have := recomp_length (U := U) (U.nfd s) none none [] (fun _ => rfl)
  simp only [Ucd.nfc]
  unfold Ucd.nfd at this ⊢
  rw [reorder_length] at this
  simpa using this

/-- What a scalar can become behind `stream_safe`: its decomposition and a U+034F. -/
def weight (U : Ucd) (c : Char) : Nat := (U.decomp c).length + 1
def weights (U : Ucd) (s : List Char) : Nat := (s.map (weight U)).sum

theorem weights_append (a b : List Char) : weights U (a ++ b) = weights U a + weights U b := by simp [weights]
theorem weights_cons (c : Char) (s : List Char) : weights U (c :: s) = weight U c + weights U s := by simp [weights]

theorem streamSafe_weight (hg : (U.decomp CGJ).length = 1) (s : List Char) : ∀ n, ((U.streamSafe n s).flatMap U.decomp).length ≤ weights U s := by
  induction s with
  | nil => intro n; simp [Ucd.streamSafe, weights]
  | cons c s ih =>
    intro n
    simp only [Ucd.streamSafe]
    rw [weights_cons]
    split
    · have := ih (U.nxt 0 c)
      simp only [List.flatMap_cons, List.length_append, hg, weight]; omega
    · have := ih (U.nxt n c)
      simp only [List.flatMap_cons, List.length_append, weight]; omega

/-- The data allow the bound: nothing decomposes into more than four scalars, variants count at most four, and unassigned scalars
stay alone. -/
structure SizeLaws (U : Ucd) : Prop where
  cgj : (U.decomp CGJ).length = 1 ∧ U.cjk CGJ = [CGJ]
  any : ∀ c, weights U (U.cjk c) ≤ 5
  unassigned : ∀ c, isAssigned U c = false → weights U (U.cjk c) ≤ 2

theorem cjk_weights (s : List Char) : weights U (U.cjkVariants s) = (s.map fun c => weights U (U.cjk c)).sum := by
  induction s with
  | nil => rfl
  | cons c s ih =>
    rw [Ucd.cjkVariants] at *
    simp [weights_append, ih]

theorem isolateGo_weight (hU : SizeLaws U) (s : List Char) : ∀ need have_,
    ((isolateGo U need have_ s).map fun c => weights U (U.cjk c)).sum ≤ 6 * s.length + (if need then 2 else 0) := by
  have hg : weights U (U.cjk CGJ) = 2 := by rw [hU.cgj.2]; simp [weights, weight, hU.cgj.1]
  induction s with
  | nil => intro need have_; cases need <;> simp [isolateGo, hg]
  | cons c s ih =>
    intro need have_
    have hc := hU.any c
    simp only [isolateGo]
    cases ha : isAssigned U c with
    | false =>
      have hu := hU.unassigned c ha
      split
      · have := ih true false
        simp [hg] at this ⊢; omega
      · have := ih false (c == CGJ)
        simp at this ⊢; omega
    | true =>
      split
      · rename_i h
        have hn : need = true := by simp at h; exact h.1
        have := ih false false
        simp [hg, hn] at this ⊢; omega
      · have := ih false (c == CGJ)
        simp at this ⊢; omega

theorem normChain_length (hU : SizeLaws U) (s : List Char) : (normChain U s).length ≤ 6 * s.length := by
  have h1 := nfc_length (U := U) (U.streamSafe 0 (U.cjkVariants (isolate U s)))
  have h2 := streamSafe_weight (U := U) hU.cgj.1 (U.cjkVariants (isolate U s)) 0
  have h3 := isolateGo_weight hU s false false
  rw [cjk_weights] at h2
  simp only [Bool.false_eq_true, if_false] at h3
  unfold normChain
  unfold isolate at *
  omega

/-! ## The data -/

theorem decomp_sizes : decompTree.all (fun n v => Nat.ble v.length 4 && assignedN n && !Nat.beq n 0x34f) = true := by decide +kernel
theorem cjk_sizes : cjkTree.all (fun n v => Nat.ble ((v.map fun d => (decompN d).length + 1).sum) 5 && v.all validN && assignedN n && !Nat.beq n 0x34f) = true := by
  decide +kernel
theorem syl_assigned : rangeAll assignedN 0xac00 11172 = true := by decide +kernel

theorem decomp_length (c : Char) : (ucd15.decomp c).length ≤ 4 := by
  have e : ucd15.decomp c = (decompN c.toNat).map Char.ofNat := rfl
  rw [e, List.length_map]
  rcases decompN_cases c.toNat with ⟨h1, h2⟩ | ⟨-, -, h2⟩ | ⟨-, v, h1, h2, -⟩
  · obtain ⟨l, v, -, -, -, -, h5⟩ := hangul_parts h1
    rcases h5 with ⟨h5, -⟩ | ⟨t, -, -, h5, -⟩ <;> rw [h2, h5] <;> simp
  · rw [h2]; simp
  · have := Tree.find_all decomp_sizes h1
    simp only [Bool.and_eq_true] at this
    rw [h2]; exact Nat.le_of_ble_eq_true this.1.1

theorem unassigned_decomp {c : Char} (h : isAssigned ucd15 c = false) : ucd15.decomp c = [c] ∧ ucd15.cjk c = [c] := by
  have ha : assignedN c.toNat = false := by
    unfold isAssigned at h
    rw [Bool.or_eq_false_iff] at h
    exact h.1
  have e : ucd15.decomp c = (decompN c.toNat).map Char.ofNat := rfl
  have e2 : ucd15.cjk c = (cjkN c.toNat).map Char.ofNat := rfl
  have hc : Char.ofNat c.toNat = c := Char.ofNat_toNat c
  refine ⟨?_, ?_⟩
  · rw [e]
    rcases decompN_cases c.toNat with ⟨h1, h2⟩ | ⟨-, -, h2⟩ | ⟨-, v, h1, h2, -⟩
    · have := rangeAll_mem syl_assigned (isSyl_iff.1 h1).1 (by have := (isSyl_iff.1 h1).2; omega)
      rw [ha] at this; cases this
    · rw [h2]; simp [hc]
    · have := Tree.find_all decomp_sizes h1
      simp [ha] at this
  · rw [e2]
    unfold cjkN
    cases hf : cjkTree.find c.toNat with
    | none => simp [hc]
    | some v =>
      have := Tree.find_all cjk_sizes hf
      simp [ha] at this

theorem sizeLaws15 : SizeLaws ucd15 where
  cgj := by decide +kernel
  any := by
    intro c
    have e2 : ucd15.cjk c = (cjkN c.toNat).map Char.ofNat := rfl
    have hc : Char.ofNat c.toNat = c := Char.ofNat_toNat c
    rw [e2]
    unfold cjkN
    cases hf : cjkTree.find c.toNat with
    | none =>
      have := decomp_length c
      simp [hc, weights, weight]; omega
    | some v =>
      have h := Tree.find_all cjk_sizes hf
      simp only [Bool.and_eq_true, List.all_eq_true] at h
      have : weights ucd15 (v.map Char.ofNat) = (v.map fun d => (decompN d).length + 1).sum := by
        unfold weights
        rw [List.map_map]
        congr 1
        apply List.map_congr_left
        intro d hd
        show ((decompN (Char.ofNat d).toNat).map Char.ofNat).length + 1 = _
        rw [List.length_map, toNat_ofNat (h.1.1.2 d hd)]
      simp only [Option.getD_some]
      rw [this]
      exact Nat.le_of_ble_eq_true h.1.1.1
  unassigned := by
    intro c h
    obtain ⟨h1, h2⟩ := unassigned_decomp h
    rw [h2]; simp [weights, weight, h1]

/-! ## The reader -/

theorem replace_sizes : replaceMulti.all (fun r => Nat.ble r.2.length 3 && (Nat.ble r.2.length 2 || !r.2.isEmpty && isEnd (Char.ofNat (r.2.getLastD 0)))) = true := by
  decide +kernel

/-- Does the text end with a scalar that must not stand at the end? -/
def open_ (s : List Char) : Nat := if s.getLast?.any fun c => !isEnd c then 1 else 0

theorem open_le (s : List Char) : open_ s ≤ 1 := by unfold open_; split <;> simp
theorem open_append {a b : List Char} (h : b ≠ []) : open_ (a ++ b) = open_ b := by
  unfold open_
  cases hb : b.getLast? with
  | none => simp at hb; exact absurd hb h
  | some x => simp [List.getLast?_append, hb]

theorem replace_length (c : Char) : (replace c).length + open_ (replace c) ≤ 3 := by
  unfold replace
  cases h : replaceMulti.lookup c.toNat with
  | none =>
    dsimp only
    split
    · have := open_le [REPL]
      simp only [List.length_singleton]; omega
    · have := open_le [c]
      simp only [List.length_singleton]; omega
  | some v =>
    have hv := List.all_eq_true.1 replace_sizes _ (lookup_mem h)
    simp only [Bool.and_eq_true, Bool.or_eq_true] at hv
    obtain ⟨h1, h2⟩ := hv
    have h1 := Nat.le_of_ble_eq_true h1
    rcases h2 with h2 | ⟨h2, h3⟩
    · have h2 := Nat.le_of_ble_eq_true h2
      have := open_le (v.map Char.ofNat)
      simp only [List.length_map]; omega
    · have : open_ (v.map Char.ofNat) = 0 := by
        unfold open_
        rcases List.eq_nil_or_concat v with rfl | ⟨v', x, rfl⟩
        · simp
        · simp [List.concat_eq_append] at h3 ⊢
          simpa using h3
      simp only [List.length_map]; omega

theorem replace_ne (c : Char) : replace c ≠ [] := by
  unfold replace
  cases h : replaceMulti.lookup c.toNat with
  | none => dsimp only; split <;> simp
  | some v =>
    have := List.all_eq_true.1 multi_ok _ (lookup_mem h)
    simp only [Bool.and_eq_true] at this
    have := this.2
    cases v <;> simp_all

/-- What a control state may still add at the end of the stream. -/
def owed (k : Ctl) : Nat := if k.state = .ground true then 0 else if k.state = .ff then 2 else 1

theorem owed_le (k : Ctl) : owed k ≤ 2 := by
  unfold owed
  split
  · simp
  · split <;> simp

theorem startGuard_length (e : Bool) (r : List Char) : (startGuard U e r).length ≤ r.length + 1 := by
  unfold startGuard
  split <;> simp

theorem startGuard_open (e : Bool) {r : List Char} (h : r ≠ []) : open_ (startGuard U e r) = open_ r := by
  unfold startGuard
  split
  · exact open_append (a := [CGJ]) h
  · rfl

/-- The price of a step that appends `o`. -/
def price (o : List Char) (k : Ctl) (b : Nat) : Nat := o.length + owed k + if o = [] then b else open_ o

theorem groundStep_owed (k : Ctl) (c : Char) (b : Nat) : price (groundStep U k c).2 (groundStep U k c).1 b ≤ 5 + b ∧
    ((groundStep U k c).2 = [] → owed (groundStep U k c).1 ≤ 2) := by
  refine ⟨?_, fun _ => owed_le _⟩
  unfold groundStep
  split
  · have : open_ ['\n'] = 0 := by decide +kernel
    simp [price, owed, this]; omega
  split
  · simp [price, owed]
  split
  · simp [price, owed]
  split
  · simp [price, owed]
  · dsimp only
    generalize hr : replace _ = r
    have h1 := startGuard_length (U := U) k.expectStarter r
    have h2 : r.length + open_ r ≤ 3 := by rw [← hr]; exact replace_length _
    have h3 : r ≠ [] := by rw [← hr]; exact replace_ne _
    have h4 := startGuard_open (U := U) k.expectStarter h3
    have h5 : startGuard U k.expectStarter r ≠ [] := by
      unfold startGuard; split
      · simp
      · exact h3
    simp only [price, if_neg h5, h4]
    have h6 : ∀ x : Bool, owed { k with state := .ground x, expectStarter := false } ≤ 1 := by intro x; cases x <;> simp [owed]
    have := h6 (k.nel && c == NEL || k.lsps && (c == LS || c == PS))
    omega

theorem stepChar_owed (k : Ctl) (c : Char) (b : Nat) (hb : b ≤ 1) : price (stepChar U k c).2 (stepChar U k c).1 b ≤ 5 + owed k + b := by
  have hg : ∀ (k : Ctl) (c : Char), price (groundStep U k c).2 (groundStep U k c).1 b ≤ 5 + b := fun k c => (groundStep_owed k c b).1
  have h0 : ∀ (k' : Ctl), owed k' ≤ 2 → price [] k' b ≤ 5 + owed k + b := by intro k' h; simp [price]; omega
  have h1 : ∀ (k' : Ctl), price (groundStep U k' c).2 (groundStep U k' c).1 b ≤ 5 + owed k + b := by
    intro k'; have := hg k' c; omega
  unfold stepChar
  cases hs : k.state with
  | ground x => exact h1 k
  | cr =>
    have hk : owed k = 1 := by simp [owed, hs]
    dsimp only
    split
    · have h := (groundStep_owed (U := U) { k with state := .ground true, expectStarter := false } c 0).1
      simp only [price] at *
      by_cases he : (groundStep U { k with state := .ground true, expectStarter := false } c).2 = []
      · have : open_ ['\n'] = 0 := by decide +kernel
        simp only [he, List.length_nil, if_true, List.length_singleton, reduceCtorEq, if_false, this] at *
        omega
      · rw [if_neg he] at h
        rw [if_neg (by simp)]
        have : ∀ o : List Char, o ≠ [] → open_ ('\n' :: o) = open_ o := fun o ho => open_append (a := ['\n']) ho
        rw [this _ he]
        simp only [List.length_cons]
        omega
    · have : open_ ['\n'] = 0 := by decide +kernel
      simp [price, owed, this]
      omega
  | ff =>
    have hk : owed k = 2 := by simp [owed, hs]
    dsimp only
    split
    · have h := (groundStep_owed (U := U) { k with state := .ground false, expectStarter := false } c b).1
      split
      · simp only [price] at *
        by_cases he : (groundStep U { k with state := .ground false, expectStarter := false } c).2 = []
        · have : open_ [' '] = 0 := by decide +kernel
          simp only [he, List.length_nil, if_true, List.append_nil, List.length_singleton, if_false, this, List.cons_ne_nil] at *
          omega
        · rw [if_neg he] at h
          rw [if_neg (by simp)]
          have : ∀ o : List Char, o ≠ [] → open_ ([' '] ++ o) = open_ o := fun o ho => open_append (a := [' ']) ho
          rw [this _ he]
          simp only [List.length_append, List.length_singleton]
          omega
      · simp only [List.nil_append]; omega
    · exact h0 k (owed_le k)
  | esc =>
    dsimp only
    repeat' split
    all_goals first | exact h1 _ | exact h0 _ (owed_le _)
  | csiStart =>
    dsimp only
    repeat' split
    all_goals first | exact h1 _ | exact h0 _ (owed_le _)
  | csi =>
    dsimp only
    repeat' split
    all_goals first | exact h1 _ | exact h0 _ (owed_le _)
  | osc =>
    dsimp only
    repeat' split
    all_goals first | exact h1 _ | exact h0 _ (owed_le _)
  | linux =>
    dsimp only
    repeat' split
    all_goals first | exact h1 _ | exact h0 _ (owed_le _)

/-- The price after a text `q` of which the last scalar may need a guard. -/
theorem price_append (q o : List Char) (k : Ctl) : q.length + price o k (open_ q) = (q ++ o).length + owed k + open_ (q ++ o) := by
  unfold price
  split
  · rename_i h; subst h; simp; omega
  · rename_i h; rw [open_append h]; simp; omega

theorem feed_owed (s : List Char) : ∀ (k : Ctl) (q : List Char),
    (q ++ (feed U k s).2).length + owed (feed U k s).1 + open_ (q ++ (feed U k s).2) ≤ q.length + 5 * s.length + owed k + open_ q := by
  induction s with
  | nil => intro k q; simp [feed]
  | cons c s ih =>
    intro k q
    have h1 := stepChar_owed (U := U) k c (open_ q) (open_le q)
    have h2 := ih (stepChar U k c).1 (q ++ (stepChar U k c).2)
    have h3 := price_append q (stepChar U k c).2 (stepChar U k c).1
    simp only [feed, List.length_cons]
    rw [← List.append_assoc]
    omega

theorem processRaw_owed (k : Ctl) (s q : List Char) : (q ++ (processRaw U k s).2).length + owed (processRaw U k s).1 + open_ (q ++ (processRaw U k s).2) ≤
    q.length + 5 * s.length + owed k + open_ q := by
  have h := feed_owed (U := U) (if k.atStart && s.head? == some BOM then s.tail else s) { k with atStart := false } q
  have e : (if k.atStart && s.head? == some BOM then s.tail else s).length ≤ s.length := by split <;> simp
  have e2 : owed { k with atStart := false } = owed k := rfl
  simp only [processRaw]
  omega

theorem endGuard_open (b : Option Char) : (endGuard b).length ≤ if b.any (fun c => !isEnd c) then 1 else 0 := by
  cases b with
  | none => simp [endGuard]
  | some c => cases h : isEnd c <;> simp [endGuard, h]

theorem finish_owed (k : Ctl) (q : List Char) (st : Status) :
    (q ++ (finish k q.getLast? st).2).length + owed (finish k q.getLast? st).1 + open_ (q ++ (finish k q.getLast? st).2) ≤ q.length + owed k + open_ q := by
  have hgc : open_ [CGJ] = 0 := by decide +kernel
  have hnl : open_ ['\n'] = 0 := by decide +kernel
  have hsp : open_ [' '] = 0 := by decide +kernel
  have e1 : endGuard (some '\n') = [] := by decide +kernel
  have e2 : endGuard (some ' ') = [] := by decide +kernel
  -- the guard pays for itself
  have hg : ∀ o : List Char, o.length + open_ (q ++ (endGuard q.getLast? ++ o)) + (endGuard q.getLast?).length ≤ o.length + (if o = [] then open_ q else open_ q + open_ o) := by
    intro o
    have h1 := endGuard_open q.getLast?
    change _ ≤ open_ q at h1
    by_cases ho : o = []
    · subst ho
      simp only [List.append_nil, List.length_nil, if_true]
      by_cases he : endGuard q.getLast? = []
      · simp [he]
      · have : endGuard q.getLast? = [CGJ] := by
          cases hq : q.getLast? with
          | none => rw [hq] at he; exact absurd rfl he
          | some l => rw [hq] at he; cases hl : isEnd l <;> simp_all [endGuard]
        rw [this] at h1 ⊢
        rw [open_append (by simp), hgc]; simp at *; omega
    · rw [if_neg ho, ← List.append_assoc, open_append ho]; omega
  simp only [finish]
  cases hs : k.state with
  | ground x =>
    have hf : finishState k = (k, []) := by simp [finishState, hs]
    rw [hf]
    simp only [List.getLast?_nil, Option.none_or, List.nil_append]
    split
    · rename_i hc
      have hx : x = false := by
        cases x
        · rfl
        · exact absurd hs hc.2
      have := hg ['\n']
      have ho : owed k = 1 := by simp [owed, hs, hx]
      rw [ho]
      simp [owed, hnl] at this ⊢
      omega
    · have := hg []
      simp at this ⊢
      omega
  | cr =>
    have hf : finishState k = ({ k with state := .ground true, expectStarter := false }, ['\n']) := by simp [finishState, hs]
    rw [hf]
    have ho : owed k = 1 := by simp [owed, hs]
    simp only [List.getLast?_singleton, Option.some_or, e1, List.append_nil]
    rw [if_neg (by simp), open_append (by simp), hnl]
    rw [ho]
    simp [owed]
  | ff =>
    have hf : finishState k = ({ k with state := .ground false, expectStarter := false }, [' ']) := by simp [finishState, hs]
    rw [hf]
    have ho : owed k = 2 := by simp [owed, hs]
    simp only [List.getLast?_singleton, Option.some_or, e2, List.append_nil]
    split
    · rw [open_append (by simp), show ([' '] ++ ['\n'] : List Char) = [' ', '\n'] from rfl, show open_ [' ', '\n'] = 0 by decide +kernel]
      rw [ho]
      simp [owed]
    · rw [open_append (by simp), hsp]
      rw [ho]
      simp [owed]
  | _ =>
    have hf : finishState k = ({ k with state := .ground false }, []) := by simp [finishState, hs]
    rw [hf]
    have ho : owed k = 1 := by simp [owed, hs]
    simp only [List.getLast?_nil, Option.none_or, List.nil_append]
    split
    · have := hg ['\n']
      rw [ho]
      simp [owed, hnl] at this ⊢
      omega
    · have := hg []
      rw [ho]
      simp [owed] at this ⊢
      omega

/-- The scalars of a list of reads. -/
def scalars : List Event → Nat
  | [] => 0
  | .data s _ :: es => s.length + scalars es
  | .err :: es => scalars es

theorem absorb_length (kt : Ctl × List Char) (s : List Char) (st : Status) :
    (absorb U kt s st).2.length + owed (absorb U kt s st).1 + open_ (absorb U kt s st).2 ≤ kt.2.length + 5 * s.length + owed kt.1 + open_ kt.2 := by
  have h1 := processRaw_owed (U := U) kt.1 s kt.2
  simp only [absorb]
  split
  · exact h1
  · have h2 := finish_owed (processRaw U kt.1 s).1 (kt.2 ++ (processRaw U kt.1 s).2) st
    have h3 : ∀ k : Ctl, owed { k with expectStarter := true } = owed k := fun _ => rfl
    simp only [h3]
    omega

theorem absorbAll_length (es : List Event) : ∀ kt : Ctl × List Char,
    (absorbAll U kt es).2.length ≤ kt.2.length + 5 * scalars es + owed kt.1 + open_ kt.2 := by
  induction es with
  | nil => intro kt; simp [absorbAll, scalars]; omega
  | cons e es ih =>
    intro kt
    cases e with
    | err => simpa [absorbAll, scalars] using ih kt
    | data s st =>
      have h1 := absorb_length (U := U) kt s st
      have h2 := ih (absorb U kt s st)
      simp only [absorbAll, scalars]
      omega

theorem flatMap_length {f : List Char → List Char} {k : Nat} (hf : ∀ s, (f s).length ≤ k * s.length) (l : List (List Char)) :
    (l.flatMap f).length ≤ k * l.flatten.length := by
  induction l with
  | nil => simp
  | cons x xs ih =>
    have := hf x
    simp only [List.flatMap_cons, List.length_append, List.flatten_cons, Nat.mul_add]
    omega

theorem hist_scalars {src es rest : List Event} (h : Hist src es rest) : scalars es + scalars rest = scalars src := by
  obtain ⟨m, e, -⟩ := h
  have ha : ∀ a b : List Event, scalars (a ++ b) = scalars a + scalars b := by
    intro a b
    induction a with
    | nil => simp [scalars]
    | cons x a ih => cases x <;> simp [scalars, ih, Nat.add_assoc]
  have hr : ∀ m, scalars (List.replicate m eof) = 0 := by
    intro m
    induction m with
    | zero => rfl
    | succ m ih => simpa [List.replicate_succ, scalars, eof] using ih
  have := congrArg scalars e
  rw [ha, ha, hr] at this
  exact this

theorem written_length (hU : TextLaws U) (hz : SizeLaws U) (nel lsps : Bool) (src : List Event) (lens : List Nat) :
    (written (readMany U lens (.new nel lsps) src)).length ≤ 30 * scalars src := by
  obtain ⟨es, h1, h2, -⟩ := run_rel hU lens (.new nel lsps) src [] [] (Rel.init nel lsps)
  obtain ⟨segs, e1, e2, -⟩ := h2.inv.ex
  have h3 := absorbAll_length (U := U) ([] ++ es) ((TextInput.new nel lsps).ctl, [])
  have h4 := flatMap_length (normChain_length hz) segs
  have h5 := hist_scalars h1
  rw [e1] at h3
  rw [← e2] at h4
  have h6 : owed (TextInput.new nel lsps).ctl = 0 := rfl
  have h7 : open_ [] = 0 := rfl
  simp only [h6, h7, List.length_append, List.nil_append, List.length_nil, List.length_flatten] at h3 h4
  omega

/-! ## The writer -/

/-- What the writer has sent and what it still holds. -/
def Writer.size (w : Writer) : Nat :=
  w.sink.sent.length + w.buffer.length + match w.state with | .ground _ => 0 | _ => w.seq.length

theorem fail_size (w : Writer) : w.fail.size ≤ w.size := by
  simp only [Writer.fail, Writer.reset, Writer.size, Sink.abandon]
  omega

theorem putChar_size (rej : Bool) (w : Writer) (c : Char) : (putChar rej w c).1.size ≤ w.size + 1 := by
  have hf := fail_size w
  unfold putChar
  cases hs : w.state with
  | ground g =>
    have e : w.size = w.sink.sent.length + w.buffer.length := by simp [Writer.size, hs]
    dsimp only
    split
    · split
      · simp [Writer.size]
      · dsimp only; omega
    split
    · simp [Writer.size]; omega
    split
    · dsimp only; omega
    · simp [Writer.size]; omega
  | esc =>
    have e : w.size = w.sink.sent.length + w.buffer.length + w.seq.length := by simp [Writer.size, hs]
    dsimp only
    split
    · simp only [Writer.size, List.length_append, List.length_singleton, hs] at *; omega
    · dsimp only; omega
  | csi =>
    have e : w.size = w.sink.sent.length + w.buffer.length + w.seq.length := by simp [Writer.size, hs]
    dsimp only
    split
    · simp only [Writer.size, List.length_append, List.length_singleton, hs] at *; omega
    split
    · simp only [Writer.size, List.length_append, List.length_singleton, hs] at *; omega
    · dsimp only; omega

theorem putAll_size (rej : Bool) (s : List Char) : ∀ w : Writer, (putAll rej w s).1.size ≤ w.size + s.length := by
  induction s with
  | nil => intro w; simp [putAll]
  | cons c s ih =>
    intro w
    have h := putChar_size rej w c
    simp only [putAll]
    cases hp : putChar rej w c with
    | mk w' o =>
      rw [hp] at h
      cases o with
      | ok =>
        have := ih w'
        simp only [List.length_cons] at *; omega
      | _ => simp only [List.length_cons] at *; omega

theorem stateMachine_size (hU : SizeLaws U) (w : Writer) (s : List Char) : (stateMachine U w s).1.size ≤ w.size + 6 * s.length := by
  have hc : (categorize s).length = s.length := by simp [categorize]
  simp only [stateMachine]
  split
  · have := putAll_size (s.any fun c => (checkChar c).isSome) (categorize s) w
    omega
  · have := putAll_size (s.any fun c => (checkChar c).isSome) (normChain U (categorize s)) w
    have := normChain_length hU (categorize s)
    omega

theorem crlfRest_size (hU : SizeLaws U) (l : List (List Char)) : ∀ w : Writer,
    (crlfRest U w l).1.size ≤ w.size + 6 * (l.map fun x => x.length + 1).sum := by
  induction l with
  | nil => intro w; simp [crlfRest]
  | cons x xs ih =>
    intro w
    have h := stateMachine_size hU { w with state := .ground .newline, buffer := w.buffer ++ ['\r', '\n'] } x
    have e : Writer.size { w with state := .ground .newline, buffer := w.buffer ++ ['\r', '\n'] } ≤ w.size + 2 := by
      simp [Writer.size]; omega
    simp only [crlfRest]
    cases hp : stateMachine U { w with state := .ground .newline, buffer := w.buffer ++ ['\r', '\n'] } x with
    | mk w' o =>
      rw [hp] at h
      cases o with
      | ok =>
        have := ih w'
        simp only [List.map_cons, List.sum_cons] at *; omega
      | _ => simp only [List.map_cons, List.sum_cons] at *; omega

theorem splitNl_length (s : List Char) : ((splitNl s).map fun x => x.length + 1).sum = s.length + 1 := by
  induction s with
  | nil => rfl
  | cons c s ih =>
    simp only [splitNl]
    split
    · simp [ih]; omega
    · cases hs : splitNl s with
      | nil => exact absurd hs (splitNl_ne s)
      | cons x xs => rw [hs] at ih; simp at ih ⊢; omega

theorem prepStr_size (hU : SizeLaws U) (w : Writer) (s : List Char) : (prepStr U w s).1.size ≤ w.size + 6 * s.length := by
  unfold prepStr
  split
  · have hl := splitNl_length s
    cases hs : splitNl s with
    | nil => exact absurd hs (splitNl_ne s)
    | cons x xs =>
      rw [hs] at hl
      have h := stateMachine_size hU w x
      simp only [crlfLoop]
      cases hp : stateMachine U w x with
      | mk w' o =>
        rw [hp] at h
        simp only [List.map_cons, List.sum_cons] at hl
        cases o with
        | ok => have := crlfRest_size hU xs w'; simp only at *; omega
        | _ => simp only at *; omega
  · exact stateMachine_size hU w s

theorem prepText_size (w : Writer) (s : List Char) : (prepText w s).size ≤ w.size + 6 * s.length := by
  rw [prepText_eq]
  have h : (toCrlf s).length ≤ 2 * s.length := by
    clear w
    induction s with
    | nil => simp [toCrlf]
    | cons c s ih =>
      have e : toCrlf (c :: s) = toCrlf [c] ++ toCrlf s := toCrlf_append [c] s
      have e2 : (toCrlf [c]).length ≤ 2 := by simp only [toCrlf, List.flatMap_cons, List.flatMap_nil, List.append_nil]; split <;> simp
      rw [e]; simp only [List.length_append, List.length_cons]; omega
  have h2 : (if w.crlf = true then toCrlf s else s).length ≤ 2 * s.length := by
    split
    · exact h
    · omega
  simp only [Writer.size, List.length_append]; omega

theorem writeStr_sink (k : Sink) (s : List Char) : (k.writeStr s).1.sent.length ≤ k.sent.length + s.length := by
  unfold Sink.writeStr
  split
  · simp
  · split <;> simp <;> omega

theorem writeBuffer_size (w : Writer) : (writeBuffer U w).1.size ≤ w.size := by
  simp only [writeBuffer]
  split
  · exact fail_size { w with expectStarter := false }
  · have h := writeStr_sink w.sink w.buffer
    cases hp : w.sink.writeStr w.buffer with
    | mk k b =>
      rw [hp] at h
      have e : Writer.size { w with expectStarter := false, sink := k, buffer := [] } ≤ w.size := by
        simp only [Writer.size, List.length_nil]; dsimp only at h; omega
      cases b with
      | true => exact e
      | false => exact Nat.le_trans (fail_size _) e

/-- The scalars handed over by a call. -/
def Op.scalars : Op → Nat
  | .str s => s.length
  | .text s => s.length
  | .bytes b => (decodePrefix b).1.length
  | _ => 0

theorem load_size (hU : SizeLaws U) (w : Writer) (op : Op) : (load U w op).1.size ≤ w.size + 6 * op.scalars := by
  cases op with
  | str s => exact prepStr_size hU w s
  | text s => exact prepText_size w s
  | bytes b =>
    simp only [load]
    split
    · exact prepStr_size hU w _
    · exact Nat.le_trans (fail_size w) (Nat.le_add_right _ _)
  | _ => simp [load]

theorem step_size (hU : SizeLaws U) (w : Writer) (op : Op) : (step U w op).1.size ≤ w.size + 6 * op.scalars := by
  cases hw : op.isWrite with
  | true =>
    rw [step_write hw]
    have h := load_size hU w op
    cases hp : load U w op with
    | mk w' o =>
      rw [hp] at h
      cases o with
      | ok => exact Nat.le_trans (writeBuffer_size w') h
      | _ => exact h
  | false =>
    have hk : ∀ k : Sink, k.flush.1.sent = k.sent := fun k => (sink_flush_sent k).1
    refine Nat.le_trans ?_ (Nat.le_add_right _ _)
    cases op with
    | flush =>
      simp only [step, flush]
      split
      · exact fail_size w
      · simp only [Writer.size, hk]; omega
      · exact Nat.le_refl _
    | close =>
      simp only [step, close, checkNl]
      split
      · rename_i h
        split at h
        · injection h with h1 h2; subst h1; simp only [Writer.size, Sink.close, hk]; omega
        · injection h with h1 h2; cases h2
      · split
        · exact Nat.le_refl _
        · exact fail_size { w with expectStarter := true }
    | abandon => simp only [step, abandon, Writer.size, Writer.reset, Sink.abandon]; omega
    | _ => simp [Op.isWrite] at hw

theorem run_size (hU : SizeLaws U) (ops : List Op) : ∀ w : Writer, (run U w ops).size ≤ w.size + 6 * (ops.map Op.scalars).sum := by
  induction ops with
  | nil => intro w; simp [run]
  | cons op ops ih =>
    intro w
    have h1 := step_size hU w op
    have h2 := ih (step U w op).1
    simp only [run, List.map_cons, List.sum_cons]
    omega

end Verif
