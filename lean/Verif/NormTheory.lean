import Verif.Norm

/-!
# Theory of the normalizer

`Ucd.Lawful` lists the facts about the Unicode data the theory uses; they are proved for the
concrete tables in `Verif/Ucd15.lean`.
-/

namespace Verif
namespace Ucd
variable (U : Ucd)

/-- Compose a starter with a list of scalars, one after the other. -/
def chain : Char → List Char → Option Char
  | k, [] => some k
  | k, d :: ds => (U.compose k d).bind (fun k' => chain k' ds)

/-- The full decomposition of `c` composes back to `c`. -/
def Recomposable (c : Char) : Prop :=
  ∃ d0 ds, U.decomp c = d0 :: ds ∧ U.chain d0 ds = some c

/-- Nonstarter counting of the stream-safe format: `none` when a run exceeds the limit. -/
def chk : Nat → List Char → Option Nat
  | n, [] => some n
  | n, c :: cs => if n + U.lead c > maxNonstarters then none else chk (U.nxt n c) cs

/-- `c` takes part in no decomposition, reordering or composition. -/
structure Inert (c : Char) : Prop where
  ccc : U.ccc c = 0
  decomp : U.decomp c = [c]
  first : ∀ x, U.compose c x = none
  second : ∀ x, U.compose x c = none
  only : ∀ x, c ∈ U.decomp x → x = c
  lead : U.lead c = 0
  trail : U.trail c = 0
  dlen : U.dlen c ≠ 0
  qc : U.qc c = .yes
  cjk : U.cjk c = [c]
  cjk_only : ∀ x, c ∈ U.cjk x → x = c

/-- Facts about the Unicode data used by the theory of normalization. -/
structure Lawful : Prop where
  decomp_ne : ∀ c, U.decomp c ≠ []
  decomp_idem : ∀ c, ∀ d ∈ U.decomp c, U.decomp d = [d]
  decomp_sorted : ∀ c, (U.decomp c).Pairwise (fun a b => U.ccc a ≤ U.ccc b)
  compose_decomp : ∀ k b r, U.compose k b = some r → U.decomp r = U.decomp k ++ [b]
  compose_ccc : ∀ k b r, U.compose k b = some r → U.ccc k = 0 ∧ U.ccc r = 0
  qc_yes : ∀ c, U.qc c = .yes → U.Recomposable c ∧ ∀ d ds, U.decomp c = d :: ds → ∀ k, U.compose k d = none
  qc_self : ∀ c, U.decomp c = [c] → U.qc c ≠ .no
  qc_compose : ∀ k b r, U.compose k b = some r → U.qc r ≠ .no
  lead_le : ∀ c, U.lead c ≤ maxNonstarters
  trail_le : ∀ c, U.trail c ≤ maxNonstarters
  chk_decomp : ∀ c n, U.chk n (U.decomp c) = U.chk n [c]
  chk_compose : ∀ k b r, U.compose k b = some r → ∀ n m, U.chk n [k, b] = some m → U.chk n [r] = some m
  nonstarter_lead : ∀ c, U.ccc c ≠ 0 → U.decomp c = [c] → U.lead c = U.dlen c
  inert_cgj : U.Inert CGJ
  inert_nl : U.Inert '\n'
  cjk_no : ∀ c, U.cjk c ≠ [c] → U.qc c = .no
  ascii : ∀ c : Char, c.toNat ≤ 0x7f → U.ccc c = 0 ∧ U.qc c = .yes ∧ U.lead c = 0 ∧ U.trail c = 0 ∧ U.dlen c ≠ 0

variable {U}

/-! ## Canonical ordering -/

/-- Canonically ordered: no nonstarter directly follows a scalar of larger class. -/
def Ord (U : Ucd) : List Char → Prop
  | [] => True
  | [_] => True
  | x :: y :: r => (U.ccc y = 0 ∨ U.ccc x ≤ U.ccc y) ∧ Ord U (y :: r)

theorem Ord.tail {x : Char} {l : List Char} (h : Ord U (x :: l)) : Ord U l := by
  cases l with
  | nil => trivial
  | cons y r => exact h.2

theorem ins_of_ord {x : Char} {l : List Char} (h : Ord U (x :: l)) : U.ins x l = x :: l := by
  cases l with
  | nil => rfl
  | cons y r =>
    have := h.1
    simp only [ins]
    rw [if_neg]
    omega

theorem reorder_of_ord {l : List Char} (h : Ord U l) : U.reorder l = l := by
  induction l with
  | nil => rfl
  | cons x r ih => simp only [reorder]; rw [ih h.tail, ins_of_ord h]

theorem ord_ins {x : Char} {l : List Char} (h : Ord U l) : Ord U (U.ins x l) := by
  induction l with
  | nil => trivial
  | cons y r ih =>
    simp only [ins]
    split
    · rename_i hc
      have ih := ih h.tail
      cases r with
      | nil => exact ⟨Or.inr (by omega), trivial⟩
      | cons z r' =>
        simp only [ins] at ih ⊢
        split
        · rename_i hz
          rw [if_pos hz] at ih
          exact ⟨h.1, ih⟩
        · rename_i hz
          rw [if_neg hz] at ih
          exact ⟨Or.inr (by omega), ih⟩
    · rename_i hc
      exact ⟨by omega, h⟩

theorem ord_reorder (l : List Char) : Ord U (U.reorder l) := by
  induction l with
  | nil => trivial
  | cons x r ih => exact ord_ins ih

theorem mem_ins {x a : Char} {l : List Char} : a ∈ U.ins x l ↔ a = x ∨ a ∈ l := by
  induction l with
  | nil => simp [ins]
  | cons y r ih =>
    simp only [ins]
    split
    · simp only [List.mem_cons, ih]; grind
    · simp

theorem mem_reorder {a : Char} {l : List Char} : a ∈ U.reorder l ↔ a ∈ l := by
  induction l with
  | nil => simp [reorder]
  | cons x r ih => simp [reorder, mem_ins, ih]

/-- `l` is empty or starts with a starter. -/
def StarterHead (U : Ucd) (l : List Char) : Prop := ∀ x ∈ l.head?, U.ccc x = 0

theorem ins_starter {x : Char} (h : U.ccc x = 0) (l : List Char) : U.ins x l = x :: l := by
  cases l with
  | nil => rfl
  | cons y r => simp only [ins]; rw [if_neg]; omega

theorem reorder_cons_starter {x : Char} (h : U.ccc x = 0) (l : List Char) :
    U.reorder (x :: l) = x :: U.reorder l := by
  simp only [reorder]; exact ins_starter h _

theorem ins_append_starter {x : Char} {a b : List Char} (hb : StarterHead U b) :
    U.ins x (a ++ b) = U.ins x a ++ b := by
  induction a with
  | nil =>
    cases b with
    | nil => rfl
    | cons y r =>
      have : U.ccc y = 0 := hb y (by simp)
      simp [ins, this]
  | cons y r ih =>
    simp only [List.cons_append, ins]
    split
    · simp [ih]
    · rfl

theorem starterHead_reorder {b : List Char} (hb : StarterHead U b) : StarterHead U (U.reorder b) := by
  cases b with
  | nil => simp [reorder, StarterHead]
  | cons y r =>
    have : U.ccc y = 0 := hb y (by simp)
    rw [reorder_cons_starter this]
    intro z hz
    simp at hz
    subst hz; exact this

theorem reorder_append {a b : List Char} (hb : StarterHead U b) :
    U.reorder (a ++ b) = U.reorder a ++ U.reorder b := by
  induction a with
  | nil => rfl
  | cons x r ih =>
    simp only [List.cons_append, reorder]
    rw [ih, ins_append_starter (starterHead_reorder hb)]

/-! ## Merging the tail of a decomposition with following nonstarters -/

/-- `Merge ds ms l`: `l` interleaves `ds` and `ms`, an element of `ms` going before the remaining
`ds` exactly when its class is smaller. -/
inductive Merge (U : Ucd) : List Char → List Char → List Char → Prop
  | nil : Merge U [] [] []
  | left {d ds ms l} : Merge U ds ms l → (∀ m ∈ ms, U.ccc d ≤ U.ccc m) → Merge U (d :: ds) ms (d :: l)
  | right {m ds ms l} : Merge U ds ms l → (∀ d ∈ ds, U.ccc m < U.ccc d) → Merge U ds (m :: ms) (m :: l)

theorem merge_ms : ∀ (ms : List Char), Merge U [] ms ms
  | [] => .nil
  | _ :: ms => .right (merge_ms ms) (by simp)

theorem merge_ins {d : Char} {ds ms l : List Char} (h : Merge U ds ms l)
    (hd : ∀ x ∈ ds, U.ccc d ≤ U.ccc x) (hms : ∀ m ∈ ms, U.ccc m ≠ 0)
    (hs : ms.Pairwise (fun a b => U.ccc a ≤ U.ccc b)) : Merge U (d :: ds) ms (U.ins d l) := by
  induction h with
  | nil => exact .left .nil (by simp)
  | @left d' ds ms l h hle ih =>
    have : U.ins d (d' :: l) = d :: d' :: l := by
      have := hd d' (by simp)
      simp only [ins]; rw [if_neg]; omega
    rw [this]
    refine .left (.left h hle) ?_
    intro m hm
    have := hd d' (by simp)
    have := hle m hm
    omega
  | @right m ds ms l h hlt ih =>
    have hm0 := hms m (by simp)
    simp only [ins]
    split
    · refine .right (ih hd (fun x hx => hms x (by simp [hx])) hs.of_cons) ?_
      intro x hx
      simp only [List.mem_cons] at hx
      rcases hx with rfl | hx
      · omega
      · exact hlt x hx
    · refine .left (.right h hlt) ?_
      intro x hx
      simp only [List.mem_cons] at hx
      rcases hx with rfl | hx
      · omega
      · have := List.rel_of_pairwise_cons hs hx
        omega

theorem ord_of_pairwise {l : List Char} (h : l.Pairwise (fun a b => U.ccc a ≤ U.ccc b)) : Ord U l := by
  induction l with
  | nil => trivial
  | cons x r ih =>
    cases r with
    | nil => trivial
    | cons y r' => exact ⟨Or.inr (List.rel_of_pairwise_cons h (by simp)), ih h.of_cons⟩

theorem merge_reorder {ds ms : List Char} (hds : ds.Pairwise (fun a b => U.ccc a ≤ U.ccc b))
    (hms : ∀ m ∈ ms, U.ccc m ≠ 0) (hs : ms.Pairwise (fun a b => U.ccc a ≤ U.ccc b)) :
    Merge U ds ms (U.reorder (ds ++ ms)) := by
  induction ds with
  | nil =>
    simp only [List.nil_append]
    rw [reorder_of_ord (ord_of_pairwise hs)]
    exact merge_ms ms
  | cons d ds ih =>
    simp only [List.cons_append, reorder]
    exact merge_ins (ih hds.of_cons) (fun x hx => List.rel_of_pairwise_cons hds hx) hms hs

/-! ## Local characterisation of NFC -/

/-- `m` does not compose with the starter `x` it follows unblocked, taking account of the marks in
the decomposition of `x` that canonical ordering puts after `m`. -/
def NoComp (U : Ucd) (x m : Char) : Prop :=
  ∀ d0 ds, U.decomp x = d0 :: ds → ∀ k,
    U.chain d0 (ds.takeWhile (fun d => U.ccc d ≤ U.ccc m)) = some k → U.compose k m = none

/-- Local conditions for being in NFC; `st` is the last starter, `last` the class of the last
nonstarter after it. -/
def Lc (U : Ucd) : Option Char → Option Nat → List Char → Prop
  | _, _, [] => True
  | st, last, c :: r =>
      U.Recomposable c ∧
      if U.ccc c = 0 then
        (∀ x, st = some x → last = none → ∀ d ds, U.decomp c = d :: ds → U.compose x d = none) ∧
          Lc U (some c) none r
      else
        (∀ l, last = some l → l ≤ U.ccc c) ∧
        (∀ x, st = some x → (∀ l, last = some l → l < U.ccc c) → NoComp U x c) ∧
          Lc U st (some (U.ccc c)) r

theorem chain_append {ds es : List Char} : ∀ {k : Char},
    U.chain k (ds ++ es) = (U.chain k ds).bind (fun k' => U.chain k' es) := by
  induction ds with
  | nil => intro k; rfl
  | cons d ds ih =>
    intro k
    simp only [List.cons_append, chain]
    cases U.compose k d with
    | none => rfl
    | some k' => simp [ih]

theorem chain_concat {ds : List Char} {k k' b r : Char} (h : U.chain k ds = some k')
    (hb : U.compose k' b = some r) : U.chain k (ds ++ [b]) = some r := by
  rw [chain_append, h]; simp [chain, hb]

theorem chain_ccc (hU : U.Lawful) {ds : List Char} : ∀ {k r : Char}, ds ≠ [] →
    U.chain k ds = some r → U.ccc k = 0 ∧ U.ccc r = 0 := by
  induction ds with
  | nil => intro k r h; exact absurd rfl h
  | cons d ds ih =>
    intro k r _ h
    simp only [chain] at h
    cases hk : U.compose k d with
    | none => simp [hk] at h
    | some k' =>
      simp [hk] at h
      have h1 := hU.compose_ccc _ _ _ hk
      cases ds with
      | nil => simp [chain] at h; subst h; exact h1
      | cons e es => exact ⟨h1.1, (ih (by simp) h).2⟩

theorem Recomposable.self {c : Char} (h : U.decomp c = [c]) : U.Recomposable c :=
  ⟨c, [], h, rfl⟩

theorem Recomposable.compose (hU : U.Lawful) {k b r : Char} (hk : U.Recomposable k)
    (h : U.compose k b = some r) : U.Recomposable r := by
  obtain ⟨d0, ds, h1, h2⟩ := hk
  exact ⟨d0, ds ++ [b], by rw [hU.compose_decomp _ _ _ h, h1]; rfl, chain_concat h2 h⟩

theorem Recomposable.nonstarter (hU : U.Lawful) {c : Char} (h : U.Recomposable c) (hc : U.ccc c ≠ 0) :
    U.decomp c = [c] := by
  obtain ⟨d0, ds, h1, h2⟩ := h
  cases ds with
  | nil => simp [chain] at h2; subst h2; exact h1
  | cons d ds => exact absurd (chain_ccc hU (by simp) h2).2 hc

theorem Recomposable.head (hU : U.Lawful) {c d : Char} {ds : List Char} (h : U.Recomposable c)
    (hc : U.ccc c = 0) (hd : U.decomp c = d :: ds) : U.ccc d = 0 ∧ U.chain d ds = some c := by
  obtain ⟨d0, ds0, h1, h2⟩ := h
  rw [h1] at hd
  injection hd with e1 e2
  subst e1 e2
  refine ⟨?_, h2⟩
  cases ds0 with
  | nil => simp [chain] at h2; subst h2; exact hc
  | cons d ds => exact (chain_ccc hU (by simp) h2).1

theorem Recomposable.qc_ne_no (hU : U.Lawful) {c : Char} (h : U.Recomposable c) : U.qc c ≠ .no := by
  obtain ⟨d0, ds, h1, h2⟩ := h
  rcases List.eq_nil_or_concat ds with rfl | ⟨es, b, rfl⟩
  · simp [chain] at h2; subst h2; exact hU.qc_self _ h1
  · rw [List.concat_eq_append, chain_append] at h2
    cases hk : U.chain d0 es with
    | none => simp [hk] at h2
    | some k =>
      simp only [hk, Option.bind_some, chain] at h2
      cases hb : U.compose k b with
      | none => simp [hb] at h2
      | some r => simp [hb] at h2; subst h2; exact hU.qc_compose _ _ _ hb

/-! ### Feeding a merged group to the recomposer -/

/-- The `last_ccc` of the recomposer after it has buffered `buf`. -/
def lastCcc (U : Ucd) (buf : List Char) : Option Nat := buf.getLast?.map U.ccc

theorem lastCcc_append (buf : List Char) (m : Char) : lastCcc U (buf ++ [m]) = some (U.ccc m) := by
  simp [lastCcc]

/-- Feed the merge of the rest `ds` of a decomposition and the nonstarters `ms`. -/
theorem recomp_merge {x d0 : Char} {all : List Char} (hx : U.decomp x = d0 :: all)
    (hchain : U.chain d0 all = some x) :
    ∀ {ds ms l : List Char}, Merge U ds ms l → ∀ {pre buf z : List Char} {k : Char},
    all = pre ++ ds → U.chain d0 pre = some k →
    (∀ m ∈ ms, U.ccc m ≠ 0) →
    (∀ d ∈ pre, ∀ m ∈ ms, U.ccc d ≤ U.ccc m) →
    (∀ b ∈ buf, ∀ d ∈ ds, U.ccc b < U.ccc d) →
    Lc U (some x) (lastCcc U buf) ms →
    U.recomp (some k) (lastCcc U buf) buf (l ++ z)
      = U.recomp (some x) (lastCcc U (buf ++ ms)) (buf ++ ms) z := by
  intro ds ms l h
  induction h with
  | nil =>
    intro pre buf z k hall hk _ _ _ _
    have : pre = all := by simpa using hall.symm
    subst this
    rw [hchain] at hk
    injection hk with hk; subst hk
    simp
  | @left d ds ms l h hle ih =>
    intro pre buf z k hall hk hms hpm hbuf hlc
    have hc : ∃ k', U.compose k d = some k' ∧ U.chain k' ds = some x := by
      rw [hall, chain_append, hk] at hchain
      simp only [Option.bind_some, chain] at hchain
      cases hkd : U.compose k d with
      | none => simp [hkd] at hchain
      | some k' => exact ⟨k', rfl, by simpa [hkd] using hchain⟩
    obtain ⟨k', hk', _⟩ := hc
    have step : U.recomp (some k) (lastCcc U buf) buf (d :: l ++ z)
        = U.recomp (some k') (lastCcc U buf) buf (l ++ z) := by
      cases hb : lastCcc U buf with
      | none => simp [recomp, hk']
      | some b =>
        have hlt : b < U.ccc d := by
          simp only [lastCcc, Option.map_eq_some_iff] at hb
          obtain ⟨y, hy, rfl⟩ := hb
          exact hbuf y (List.mem_of_getLast? hy) d (by simp)
        simp only [List.cons_append, recomp]
        rw [if_neg (by omega), hk']
    rw [step]
    refine ih (pre := pre ++ [d]) (by simp [hall]) (chain_concat hk hk') hms ?_ ?_ hlc
    · intro e he m hm
      simp only [List.mem_append, List.mem_singleton] at he
      rcases he with he | rfl
      · exact hpm e he m hm
      · exact hle m hm
    · intro b hb e he; exact hbuf b hb e (by simp [he])
  | @right m ds ms l h hlt ih =>
    intro pre buf z k hall hk hms hpm hbuf hlc
    have hm0 := hms m (by simp)
    have htw : all.takeWhile (fun d => decide (U.ccc d ≤ U.ccc m)) = pre := by
      rw [hall, List.takeWhile_append_of_pos (by intro d hd; simpa using hpm d hd m (by simp))]
      cases ds with
      | nil => simp
      | cons d ds =>
        have := hlt d (by simp)
        simp [this]
    simp only [Lc, hm0, if_false] at hlc
    have step : U.recomp (some k) (lastCcc U buf) buf (m :: l ++ z)
        = U.recomp (some k) (lastCcc U (buf ++ [m])) (buf ++ [m]) (l ++ z) := by
      rw [lastCcc_append]
      have hno : (∀ l, lastCcc U buf = some l → l < U.ccc m) → U.compose k m = none := by
        intro hl
        exact hlc.2.2.1 x rfl hl d0 all hx k (by rw [htw]; exact hk)
      cases hb : lastCcc U buf with
      | none =>
        rw [hb] at hno
        simp only [List.cons_append, recomp]
        rw [hno (by simp)]; simp [hm0]
      | some b =>
        rw [hb] at hno
        simp only [List.cons_append, recomp]
        split
        · simp
        · rw [hno (by intro l hl; injection hl with hl; omega)]
    rw [step]
    have := ih (pre := pre) (buf := buf ++ [m]) (z := z) (k := k) hall hk
      (fun y hy => hms y (by simp [hy]))
      (fun d hd y hy => hpm d hd y (by simp [hy]))
      (by
        intro b hb d hd
        simp only [List.mem_append, List.mem_singleton] at hb
        rcases hb with hb | rfl
        · exact hbuf b hb d hd
        · exact hlt d hd)
      (by rw [lastCcc_append]; exact hlc.2.2.2)
    rw [this]; simp

/-! ### Local conditions imply NFC -/

theorem lc_append_marks {st : Option Char} {ms s : List Char} : ∀ {last : Option Nat},
    (∀ m ∈ ms, U.ccc m ≠ 0) → Lc U st last (ms ++ s) →
    Lc U st last ms ∧ Lc U st ((lastCcc U ms).or last) s := by
  induction ms with
  | nil => intro last _ h; exact ⟨trivial, by simpa [lastCcc] using h⟩
  | cons m ms ih =>
    intro last hms h
    have hm := hms m (by simp)
    simp only [List.cons_append, Lc, hm, if_false] at h ⊢
    have := ih (fun y hy => hms y (by simp [hy])) h.2.2.2
    refine ⟨⟨h.1, h.2.1, h.2.2.1, this.1⟩, ?_⟩
    have e : lastCcc U (m :: ms) = ((lastCcc U ms).or (some (U.ccc m))) := by
      cases h : ms.getLast? <;> simp [lastCcc, List.getLast?_cons, h]
    rw [e]
    have h2 := this.2
    revert h2
    cases lastCcc U ms <;> simp

theorem lc_marks {st : Option Char} {ms : List Char} : ∀ {last : Option Nat},
    (∀ m ∈ ms, U.ccc m ≠ 0) → Lc U st last ms →
    ms.Pairwise (fun a b => U.ccc a ≤ U.ccc b) ∧ (∀ l, last = some l → ∀ m ∈ ms, l ≤ U.ccc m) ∧
      (∀ m ∈ ms, U.Recomposable m) := by
  induction ms with
  | nil => intro last _ h; simp
  | cons m ms ih =>
    intro last hms h
    have hm := hms m (by simp)
    simp only [Lc, hm, if_false] at h
    obtain ⟨h1, h2, h3⟩ := ih (fun y hy => hms y (by simp [hy])) h.2.2.2
    have h2 := h2 _ rfl
    refine ⟨List.pairwise_cons.2 ⟨h2, h1⟩, ?_, ?_⟩
    · intro l hl y hy
      have := h.2.1 l hl
      simp only [List.mem_cons] at hy
      rcases hy with rfl | hy
      · exact this
      · have := h2 y hy; omega
    · intro y hy
      simp only [List.mem_cons] at hy
      rcases hy with rfl | hy
      · exact h.1
      · exact h3 y hy

theorem flatMap_self {ms : List Char} (h : ∀ m ∈ ms, U.decomp m = [m]) : ms.flatMap U.decomp = ms := by
  induction ms with
  | nil => rfl
  | cons m ms ih =>
    simp only [List.flatMap_cons, h m (by simp)]
    rw [ih (fun y hy => h y (by simp [hy]))]; rfl

theorem recomp_marks {ms z : List Char} (h : ∀ m ∈ ms, U.ccc m ≠ 0) :
    U.recomp none none [] (ms ++ z) = ms ++ U.recomp none none [] z := by
  induction ms with
  | nil => rfl
  | cons m ms ih =>
    simp only [List.cons_append, recomp]
    rw [if_pos (h m (by simp)), ih (fun y hy => h y (by simp [hy]))]

/-- Split a list into leading nonstarters and a rest that starts with a starter. -/
theorem split_marks (U : Ucd) (s : List Char) :
    ∃ ms r, s = ms ++ r ∧ (∀ m ∈ ms, U.ccc m ≠ 0) ∧ StarterHead U r := by
  induction s with
  | nil => exact ⟨[], [], rfl, by simp, by simp [StarterHead]⟩
  | cons c s ih =>
    by_cases hc : U.ccc c = 0
    · exact ⟨[], c :: s, rfl, by simp, by simp [StarterHead, hc]⟩
    · obtain ⟨ms, r, h1, h2, h3⟩ := ih
      refine ⟨c :: ms, r, by simp [h1], ?_, h3⟩
      intro m hm
      simp only [List.mem_cons] at hm
      rcases hm with rfl | hm
      · exact hc
      · exact h2 m hm

theorem decomp_cons (hU : U.Lawful) (c : Char) : ∃ d ds, U.decomp c = d :: ds := by
  cases h : U.decomp c with
  | nil => exact absurd h (hU.decomp_ne c)
  | cons d ds => exact ⟨d, ds, rfl⟩

theorem starterHead_flatMap (hU : U.Lawful) {st : Option Char} {last : Option Nat} {s : List Char}
    (h : StarterHead U s) (hlc : Lc U st last s) : StarterHead U (s.flatMap U.decomp) := by
  cases s with
  | nil => simp [StarterHead]
  | cons c r =>
    have hc : U.ccc c = 0 := h c (by simp)
    obtain ⟨d, ds, hd⟩ := decomp_cons hU c
    have := hlc.1.head hU hc hd
    intro x hx
    simp [hd] at hx
    subst hx; exact this.1

theorem recomp_flush (hU : U.Lawful) {x : Char} {ms s : List Char} (h : StarterHead U s)
    (hlc : Lc U (some x) (lastCcc U ms) s) :
    U.recomp (some x) (lastCcc U ms) ms (U.nfd s) = x :: ms ++ U.recomp none none [] (U.nfd s) := by
  cases s with
  | nil => simp [nfd, reorder, recomp]
  | cons c r =>
    have hc : U.ccc c = 0 := h c (by simp)
    obtain ⟨d, ds, hd⟩ := decomp_cons hU c
    have h0 := (hlc.1.head hU hc hd).1
    simp only [nfd, List.flatMap_cons, hd, List.cons_append]
    rw [reorder_cons_starter h0]
    cases hl : lastCcc U ms with
    | none =>
      have hms : ms = [] := by simpa [lastCcc] using hl
      subst hms
      simp only [Lc, hc, if_true] at hlc
      have := hlc.2.1 x rfl hl d ds hd
      simp [recomp, this, h0]
    | some l => simp [recomp, h0]

theorem nfc_starter (hU : U.Lawful) : ∀ (n : Nat) (s : List Char), s.length ≤ n → StarterHead U s →
    ∀ st last, Lc U st last s → U.recomp none none [] (U.nfd s) = s := by
  intro n
  induction n with
  | zero =>
    intro s hs _ st last _
    have : s = [] := by simpa using hs
    subst this; simp [nfd, reorder, recomp]
  | succ n ih =>
    intro s hs hh st last hlc
    cases s with
    | nil => simp [nfd, reorder, recomp]
    | cons x r =>
      have hx : U.ccc x = 0 := hh x (by simp)
      obtain ⟨d, ds, hd⟩ := decomp_cons hU x
      obtain ⟨ms, s', rfl, hms, hs'⟩ := split_marks U r
      have hrec := hlc.1
      simp only [Lc, hx, if_true] at hlc
      obtain ⟨h1, h2⟩ := lc_append_marks hms hlc.2.2
      have h3 := lc_marks hms h1
      have hfm : ms.flatMap U.decomp = ms :=
        flatMap_self (fun m hm => (h3.2.2 m hm).nonstarter hU (hms m hm))
      have h2' : Lc U (some x) (lastCcc U ms) s' := by simpa using h2
      have hsort := hU.decomp_sorted x
      rw [hd] at hsort
      obtain ⟨hd0, hch⟩ := hrec.head hU hx hd
      have e : U.nfd (x :: (ms ++ s')) = d :: (U.reorder (ds ++ ms) ++ U.nfd s') := by
        simp only [nfd, List.flatMap_cons, List.flatMap_append, hfm, hd]
        rw [← List.append_assoc, reorder_append (starterHead_flatMap hU hs' h2), List.cons_append,
          reorder_cons_starter hd0]
        rfl
      rw [e]
      have e2 : U.recomp none none [] (d :: (U.reorder (ds ++ ms) ++ U.nfd s'))
          = U.recomp (some d) (lastCcc U []) [] (U.reorder (ds ++ ms) ++ U.nfd s') := by
        simp [recomp, hd0, lastCcc]
      rw [e2, recomp_merge hd hch (merge_reorder hsort.of_cons hms h3.1) (pre := []) (by simp) rfl hms
        (by simp) (by simp) (by simpa [lastCcc] using h1)]
      simp only [List.nil_append]
      rw [recomp_flush hU hs' h2', ih s' (by simp at hs; omega) hs' _ _ h2']
      simp

/-- Local conditions imply that NFC changes nothing. -/
theorem nfc_of_lc (hU : U.Lawful) {s : List Char} {st : Option Char} {last : Option Nat}
    (h : Lc U st last s) : U.nfc s = s := by
  obtain ⟨ms, s', rfl, hms, hs'⟩ := split_marks U s
  obtain ⟨h1, h2⟩ := lc_append_marks hms h
  have h3 := lc_marks hms h1
  have hfm : ms.flatMap U.decomp = ms :=
    flatMap_self (fun m hm => (h3.2.2 m hm).nonstarter hU (hms m hm))
  have e : U.nfd (ms ++ s') = ms ++ U.nfd s' := by
    simp only [nfd, List.flatMap_append, hfm]
    rw [reorder_append (starterHead_flatMap hU hs' h2), reorder_of_ord (ord_of_pairwise h3.1)]
  simp only [nfc, e]
  rw [recomp_marks hms, nfc_starter hU _ s' (Nat.le_refl _) hs' _ _ h2]

/-! ### The recomposer's output satisfies the local conditions -/

theorem lc_append_marks_mpr {st : Option Char} {ms s : List Char} : ∀ {last : Option Nat},
    (∀ m ∈ ms, U.ccc m ≠ 0) → Lc U st last ms → Lc U st ((lastCcc U ms).or last) s →
    Lc U st last (ms ++ s) := by
  induction ms with
  | nil => intro last _ _ h; simpa [lastCcc] using h
  | cons m ms ih =>
    intro last hms h h'
    have hm := hms m (by simp)
    simp only [List.cons_append, Lc, hm, if_false] at h ⊢
    refine ⟨h.1, h.2.1, h.2.2.1, ih (fun y hy => hms y (by simp [hy])) h.2.2.2 ?_⟩
    have e : lastCcc U (m :: ms) = ((lastCcc U ms).or (some (U.ccc m))) := by
      cases h : ms.getLast? <;> simp [lastCcc, List.getLast?_cons, h]
    rw [e] at h'
    revert h'
    cases lastCcc U ms <;> simp

theorem takeWhile_all {α : Type} {p : α → Bool} {l : List α} (h : ∀ x ∈ l, p x = true) :
    l.takeWhile p = l := by
  induction l with
  | nil => rfl
  | cons a l ih => simp [h a (by simp), ih (fun x hx => h x (by simp [hx]))]

theorem mem_takeWhile {α : Type} {p : α → Bool} {l : List α} {x : α} (h : x ∈ l.takeWhile p) :
    p x = true := by
  induction l with
  | nil => simp at h
  | cons a l ih =>
    simp only [List.takeWhile_cons] at h
    split at h
    · rcases List.mem_cons.1 h with rfl | h
      · assumption
      · exact ih h
    · simp at h

theorem noComp_extend {k ch k' m : Char} (hU : U.Lawful) (h : NoComp U k m)
    (hc : U.compose k ch = some k') (hlt : U.ccc m < U.ccc ch) : NoComp U k' m := by
  intro d0 ds hd q hq
  rw [hU.compose_decomp _ _ _ hc] at hd
  obtain ⟨e0, es, he⟩ := decomp_cons hU k
  rw [he, List.cons_append] at hd
  injection hd with h1 h2
  subst h1 h2
  refine h e0 es he q ?_
  rw [← hq]
  congr 1
  by_cases hall : ∀ x ∈ es, decide (U.ccc x ≤ U.ccc m) = true
  · rw [List.takeWhile_append_of_pos hall]
    have : ¬ U.ccc ch ≤ U.ccc m := by omega
    simp [this, takeWhile_all hall]
  · rw [List.takeWhile_append]
    split
    · rename_i hlen
      exfalso; apply hall
      intro x hx
      have hp : List.takeWhile (fun d => decide (U.ccc d ≤ U.ccc m)) es = es :=
        (List.takeWhile_prefix _).eq_of_length hlen
      rw [← hp] at hx
      exact mem_takeWhile (p := fun d => decide (U.ccc d ≤ U.ccc m)) hx
    · rfl

theorem lc_change_st {ms : List Char} {k k' : Char} :
    ∀ {last : Option Nat}, (∀ m ∈ ms, U.ccc m ≠ 0) → (∀ m ∈ ms, NoComp U k m → NoComp U k' m) →
    Lc U (some k) last ms → Lc U (some k') last ms := by
  induction ms with
  | nil => intro _ _ _ _; trivial
  | cons m ms ih =>
    intro last hms hn h
    have hm := hms m (by simp)
    simp only [Lc, hm, if_false] at h ⊢
    refine ⟨h.1, h.2.1, ?_, ih (fun y hy => hms y (by simp [hy])) (fun y hy => hn y (by simp [hy])) h.2.2.2⟩
    intro x hx hl
    injection hx with hx; subst hx
    exact hn m (by simp) (h.2.2.1 k rfl hl)

theorem noComp_of_le {k m : Char} (hk : U.Recomposable k)
    (hle : ∀ d ds, U.decomp k = d :: ds → ∀ e ∈ ds, U.ccc e ≤ U.ccc m) (hno : U.compose k m = none) :
    NoComp U k m := by
  intro d0 ds hd q hq
  obtain ⟨e0, es, he, hch⟩ := hk
  rw [he] at hd
  injection hd with h1 h2
  subst h1 h2
  have : es.takeWhile (fun d => decide (U.ccc d ≤ U.ccc m)) = es := by
    apply takeWhile_all
    intro x hx
    simpa using hle _ _ he x hx
  rw [this, hch] at hq
  injection hq with hq
  subst hq; exact hno

theorem lastCcc_some {buf : List Char} {l : Nat} (h : lastCcc U buf = some l) :
    ∃ y ∈ buf, U.ccc y = l := by
  simp only [lastCcc, Option.map_eq_some_iff] at h
  obtain ⟨y, hy, rfl⟩ := h
  exact ⟨y, List.mem_of_getLast? hy, rfl⟩

theorem pairwise_le_last {buf : List Char} (h : buf.Pairwise (fun a b => U.ccc a ≤ U.ccc b)) {l : Nat}
    (hl : lastCcc U buf = some l) : ∀ m ∈ buf, U.ccc m ≤ l := by
  rcases List.eq_nil_or_concat buf with rfl | ⟨es, b, rfl⟩
  · simp
  · rw [List.concat_eq_append] at *
    rw [lastCcc_append] at hl
    injection hl with hl; subst hl
    intro m hm
    simp only [List.mem_append, List.mem_singleton] at hm
    rcases hm with hm | rfl
    · exact (List.pairwise_append.1 h).2.2 m hm b (by simp)
    · exact Nat.le_refl _

/-- The head of `rest` may follow `k` and `buf` in canonical order. -/
def Next (U : Ucd) (k : Char) (buf rest : List Char) : Prop :=
  ∀ ch ∈ rest.head?, U.ccc ch ≠ 0 →
    (∀ m ∈ buf, U.ccc m ≤ U.ccc ch) ∧ (∀ d ds, U.decomp k = d :: ds → ∀ e ∈ ds, U.ccc e ≤ U.ccc ch)

theorem lc_recomp_some (hU : U.Lawful) : ∀ (rest : List Char) (k : Char) (buf : List Char)
    (st0 : Option Char) (last0 : Option Nat),
    (∀ c ∈ rest, U.decomp c = [c]) → Ord U rest → U.Recomposable k → U.ccc k = 0 →
    (∀ m ∈ buf, U.ccc m ≠ 0) → Lc U (some k) none buf → Next U k buf rest →
    (∀ x, st0 = some x → last0 = none → ∀ d ds, U.decomp k = d :: ds → U.compose x d = none) →
    Lc U st0 last0 (U.recomp (some k) (lastCcc U buf) buf rest) := by
  intro rest
  induction rest with
  | nil =>
    intro k buf st0 last0 _ _ hk hk0 hb hlc _ hj
    simp only [recomp, Lc, hk0, if_true]
    exact ⟨hk, hj, hlc⟩
  | cons ch r ih =>
    intro k buf st0 last0 hdec hord hk hk0 hb hlc hnext hj
    have hchd := hdec ch (by simp)
    have hdec' : ∀ c ∈ r, U.decomp c = [c] := fun c hc => hdec c (by simp [hc])
    have hord' := hord.tail
    have hsort := (lc_marks hb hlc).1
    have hnx := hnext ch (by simp)
    -- the composing step
    have comp : ∀ k', U.compose k ch = some k' →
        (∀ m ∈ buf, U.ccc m < U.ccc ch) →
        Lc U st0 last0 (U.recomp (some k') (lastCcc U buf) buf r) := by
      intro k' hk' hlt
      have hdk' := hU.compose_decomp _ _ _ hk'
      refine ih k' buf st0 last0 hdec' hord' (hk.compose hU hk') (hU.compose_ccc _ _ _ hk').2 hb
        (lc_change_st hb (fun m hm h => noComp_extend hU h hk' (hlt m hm)) hlc) ?_ ?_
      · intro c2 hc2 hc20
        have hle : U.ccc ch ≤ U.ccc c2 := by
          cases r with
          | nil => simp at hc2
          | cons y ys =>
            simp at hc2; subst hc2
            have := hord.1
            omega
        refine ⟨fun m hm => by have := hlt m hm; omega, ?_⟩
        intro d ds hd e he
        have hs := hU.decomp_sorted k'
        obtain ⟨e0, es, hek⟩ := decomp_cons hU k
        rw [hdk', hek] at hs hd
        rw [List.cons_append] at hd
        injection hd with h1 h2
        subst h1 h2
        simp only [List.mem_append, List.mem_singleton] at he
        rcases he with he | rfl
        · have := (List.pairwise_append.1 hs).2.2 e (by simp [he]) ch (by simp)
          omega
        · exact hle
      · intro x hx hl d ds hd
        obtain ⟨e0, es, hek⟩ := decomp_cons hU k
        rw [hdk', hek] at hd
        injection hd with h1 h2
        subst h1
        exact hj x hx hl _ _ hek
    -- the buffering step
    have buff : U.ccc ch ≠ 0 → ((∀ l, lastCcc U buf = some l → l < U.ccc ch) → U.compose k ch = none) →
        Lc U st0 last0 (U.recomp (some k) (some (U.ccc ch)) (buf ++ [ch]) r) := by
      intro h0 hno
      rw [← lastCcc_append buf ch]
      refine ih k (buf ++ [ch]) st0 last0 hdec' hord' hk hk0 ?_ ?_ ?_ hj
      · intro m hm
        simp only [List.mem_append, List.mem_singleton] at hm
        rcases hm with hm | rfl
        · exact hb m hm
        · exact h0
      · refine lc_append_marks_mpr hb hlc ?_
        simp only [Lc, h0, if_false, Option.or_none]
        refine ⟨.self hchd, ?_, ?_, trivial⟩
        · intro l hl
          obtain ⟨y, hy, rfl⟩ := lastCcc_some hl
          exact (hnx h0).1 y hy
        · intro x hx hl
          injection hx with hx; subst hx
          exact noComp_of_le hk (hnx h0).2 (hno hl)
      · intro c2 hc2 hc20
        have hle : U.ccc ch ≤ U.ccc c2 := by
          cases r with
          | nil => simp at hc2
          | cons y ys =>
            simp at hc2; subst hc2
            have := hord.1
            omega
        refine ⟨?_, ?_⟩
        · intro m hm
          simp only [List.mem_append, List.mem_singleton] at hm
          rcases hm with hm | rfl
          · have := (hnx h0).1 m hm; omega
          · exact hle
        · intro d ds hd e he
          have := (hnx h0).2 d ds hd e he; omega
    -- the starter step
    have start : U.ccc ch = 0 → (∀ x, some k = some x → lastCcc U buf = none → U.compose x ch = none) →
        Lc U st0 last0 (k :: buf ++ U.recomp (some ch) none [] r) := by
      intro h0 hno
      simp only [List.cons_append, Lc, hk0, if_true]
      refine ⟨hk, hj, lc_append_marks_mpr hb hlc ?_⟩
      have := ih ch [] (some k) ((lastCcc U buf).or none) hdec' hord' (.self hchd) h0 (by simp) trivial ?_ ?_
      · simpa [lastCcc] using this
      · intro c2 hc2 hc20
        refine ⟨by simp, ?_⟩
        intro d ds hd e he
        rw [hchd] at hd
        injection hd with h1 h2
        subst h2; simp at he
      · intro x hx hl d ds hd
        rw [hchd] at hd
        injection hd with h1 h2
        subst h1
        exact hno x hx (by simpa using hl)
    cases hl : lastCcc U buf with
    | none =>
      have hbn : buf = [] := by simpa [lastCcc] using hl
      subst hbn
      simp only [recomp]
      cases hc : U.compose k ch with
      | some k' => simpa [hl] using comp k' hc (by simp)
      | none =>
        simp only
        split
        · rename_i h0
          simpa using start h0 (by intro x hx _; injection hx with hx; subst hx; exact hc)
        · rename_i h0
          exact buff h0 (fun _ => hc)
    | some l =>
      simp only [recomp]
      split
      · rename_i hge
        split
        · rename_i h0
          exact start h0 (by intro x hx h; rw [hl] at h; cases h)
        · rename_i h0
          refine buff h0 ?_
          intro h
          have := h l hl
          omega
      · rename_i hge
        have hlt : ∀ m ∈ buf, U.ccc m < U.ccc ch := by
          intro m hm
          have := pairwise_le_last hsort hl m hm
          omega
        cases hc : U.compose k ch with
        | some k' => simpa [hl] using comp k' hc hlt
        | none =>
          simp only
          exact buff (by omega) (fun _ => hc)

theorem lc_recomp_none (hU : U.Lawful) : ∀ (z : List Char) (last0 : Option Nat),
    (∀ c ∈ z, U.decomp c = [c]) → Ord U z →
    (∀ l, last0 = some l → ∀ ch ∈ z.head?, U.ccc ch ≠ 0 → l ≤ U.ccc ch) →
    Lc U none last0 (U.recomp none none [] z) := by
  intro z
  induction z with
  | nil => intro _ _ _ _; simp [recomp, Lc]
  | cons ch r ih =>
    intro last0 hdec hord hl
    have hchd := hdec ch (by simp)
    have hdec' : ∀ c ∈ r, U.decomp c = [c] := fun c hc => hdec c (by simp [hc])
    simp only [recomp]
    split
    · rename_i h0
      simp only [Lc, h0, if_false]
      refine ⟨.self hchd, fun l h => hl l h ch (by simp) h0, by simp, ih _ hdec' hord.tail ?_⟩
      intro l hl2 c2 hc2 hc20
      injection hl2 with hl2; subst hl2
      cases r with
      | nil => simp at hc2
      | cons y ys =>
        simp at hc2; subst hc2
        have := hord.1
        omega
    · rename_i h0
      have h0 : U.ccc ch = 0 := by omega
      have := lc_recomp_some hU r ch [] none last0 hdec' hord.tail (.self hchd) h0 (by simp) trivial
        (by
          intro c2 hc2 hc20
          refine ⟨by simp, ?_⟩
          intro d ds hd e he
          rw [hchd] at hd
          injection hd with h1 h2
          subst h2; simp at he) (by simp)
      simpa [lastCcc] using this

theorem decomposed_nfd (hU : U.Lawful) (s : List Char) : ∀ c ∈ U.nfd s, U.decomp c = [c] := by
  intro c hc
  simp only [nfd, mem_reorder, List.mem_flatMap] at hc
  obtain ⟨x, _, hx⟩ := hc
  exact hU.decomp_idem x c hx

/-- NFC output satisfies the local conditions. -/
theorem lc_nfc (hU : U.Lawful) (s : List Char) : Lc U none none (U.nfc s) :=
  lc_recomp_none hU _ none (decomposed_nfd hU s) (ord_reorder _) (by simp)

/-- NFC is idempotent. -/
theorem nfc_nfc (hU : U.Lawful) (s : List Char) : U.nfc (U.nfc s) = U.nfc s :=
  nfc_of_lc hU (lc_nfc hU s)

theorem nfc_eq_iff_lc (hU : U.Lawful) {s : List Char} : U.nfc s = s ↔ Lc U none none s :=
  ⟨fun h => h ▸ lc_nfc hU s, nfc_of_lc hU⟩

end Ucd
end Verif
