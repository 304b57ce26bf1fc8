import Verif.Stability
import Verif.Ucd15Start

/-!
# Newer Unicode data

Two ways in which a new version of Unicode may grow, as functions on the data: a new letter that forms a new composite with an
existing mark (as in Unicode 16.0: U+105D2 with U+307 gives U+105C9), and a new scalar that is canonically equivalent to an
existing one (as the CJK compatibility ideographs added in Unicode 6.1).  Both keep every law the theory uses.
-/

namespace Verif
open Ucd
variable {U : Ucd}

/-- A new letter `b` and a new composite `r` of `b` and the mark `m`. -/
def addPair (U : Ucd) (b m r : Char) : Ucd where
  ccc := U.ccc
  decomp c := if c = r then [b, m] else U.decomp c
  compose x y := if x = b ∧ y = m then some r else U.compose x y
  qc := U.qc
  lead := U.lead
  trail c := if c = r then 1 else U.trail c
  dlen c := if c = r then 2 else U.dlen c
  assigned c := c == b || c == r || U.assigned c
  cjk := U.cjk

/-- A new scalar `c` that decomposes to `d` alone. -/
def addSingleton (U : Ucd) (c d : Char) : Ucd where
  ccc := U.ccc
  decomp x := if x = c then [d] else U.decomp x
  compose := U.compose
  qc x := if x = c then .no else U.qc x
  lead := U.lead
  trail := U.trail
  dlen := U.dlen
  assigned x := x == c || U.assigned x
  cjk := U.cjk

/-- What the new letter, mark and composite are like. -/
structure PairOk (U : Ucd) (b m r : Char) : Prop where
  newb : U.assigned b = false
  newr : U.assigned r = false
  ne : b ≠ r
  oldm : U.assigned m = true
  okb : okChar b = true
  okr : okChar r = true
  okm : okChar m = true
  mdecomp : U.decomp m = [m]
  mmark : U.ccc m ≠ 0
  mlead : U.lead m = 1
  mdlen : U.dlen m = 1
  mused : ∃ k x, U.compose k m = some x
  wj : U.assigned WJ = true

theorem inert_pair {b m r c : Char} (h : U.Inert c) (hb : c ≠ b) (hm : c ≠ m) (hr : c ≠ r) : (addPair U b m r).Inert c where
  ccc := h.ccc
  decomp := by simp [addPair, hr, h.decomp]
  first x := by simp [addPair, hb, h.first]
  second x := by simp [addPair, hm, h.second]
  only x hx := by
    by_cases hxr : x = r
    · simp [addPair, hxr, hb, hm] at hx
    · simp only [addPair, hxr, if_false] at hx; exact h.only x hx
  lead := h.lead
  trail := by simp [addPair, hr, h.trail]
  dlen := by simp [addPair, hr, h.dlen]
  qc := h.qc
  cjk := h.cjk
  cjk_only := h.cjk_only

theorem result_ne (hU : TextLaws U) {k b r x : Char} (h : U.compose k b = some x) (hr : U.assigned r = false) : x ≠ r := by
  rintro rfl
  have h1 := (hU.unassigned_inert x hr).decomp
  have h2 := hU.law.compose_decomp _ _ _ h
  have h3 := hU.law.decomp_ne k
  rw [h1] at h2
  cases hk : U.decomp k with
  | nil => exact absurd hk h3
  | cons y ys => rw [hk] at h2; simp at h2

theorem compose_pair {b m r k y x : Char} (h : (addPair U b m r).compose k y = some x) :
    (k = b ∧ y = m ∧ x = r) ∨ U.compose k y = some x := by
  simp only [addPair] at h
  split at h
  · rename_i hc; exact Or.inl ⟨hc.1, hc.2, by simpa using h.symm⟩
  · exact Or.inr h

theorem chain_pair (hU : TextLaws U) {b m r : Char} (hp : PairOk U b m r) {ds : List Char} : ∀ {k c : Char}, U.chain k ds = some c →
    (addPair U b m r).chain k ds = some c := by
  induction ds with
  | nil => intro k c h; exact h
  | cons d ds ih =>
    intro k c h
    simp only [chain] at h ⊢
    cases hq : U.compose k d with
    | none => rw [hq] at h; simp at h
    | some x =>
      rw [hq, Option.bind_some] at h
      have : (addPair U b m r).compose k d = some x := by
        simp only [addPair]
        rw [if_neg, hq]
        rintro ⟨rfl, rfl⟩
        rw [(hU.unassigned_inert k hp.newb).first] at hq; simp at hq
      rw [this, Option.bind_some, ih h]

theorem chk_old {V : Ucd} {s : List Char} (h : ∀ c ∈ s, V.lead c = U.lead c ∧ V.trail c = U.trail c ∧ V.dlen c = U.dlen c) :
    ∀ n, V.chk n s = U.chk n s := by
  induction s with
  | nil => intro n; rfl
  | cons c s ih =>
    intro n
    obtain ⟨h1, h2, h3⟩ := h c (by simp)
    simp only [chk, nxt]
    rw [h1, h2, h3, ih fun d hd => h d (by simp [hd])]

theorem chk_pair {b m r : Char} {s : List Char} (h : r ∉ s) (n : Nat) : (addPair U b m r).chk n s = U.chk n s :=
  chk_old (fun c hc => by
    have : c ≠ r := fun e => h (e ▸ hc)
    simp [addPair, this]) n

theorem textLaws_pair (hU : TextLaws U) {b m r : Char} (hp : PairOk U b m r) : TextLaws (addPair U b m r) := by
  have hb := hU.unassigned_inert b hp.newb
  have hr := hU.unassigned_inert r hp.newr
  have hm1 : m ≠ b := by rintro rfl; have := hp.oldm; rw [hp.newb] at this; simp at this
  have hm2 : m ≠ r := by rintro rfl; have := hp.oldm; rw [hp.newr] at this; simp at this
  have hmi : ∀ c, U.Inert c → c ≠ m := by
    rintro c hc rfl
    obtain ⟨k, x, h⟩ := hp.mused
    rw [hc.second] at h; simp at h
  have hasn : ∀ c, U.assigned c = true → c ≠ b ∧ c ≠ r := by
    intro c hc
    constructor <;> rintro rfl
    · rw [hp.newb] at hc; simp at hc
    · rw [hp.newr] at hc; simp at hc
  have hin : ∀ c, U.Inert c → U.assigned c = true → (addPair U b m r).Inert c := fun c h1 h2 =>
    inert_pair h1 (hasn c h2).1 (hmi c h1) (hasn c h2).2
  have hmono : ∀ c, U.assigned c = true → (addPair U b m r).assigned c = true := fun c hc => by simp [addPair, hc]
  have hstart : ∀ c, isStart (addPair U b m r) c = isStart U c := fun c => rfl
  have hdec : ∀ c, c ≠ r → (addPair U b m r).decomp c = U.decomp c := fun c hc => by simp [addPair, hc]
  have hdecr : (addPair U b m r).decomp r = [b, m] := by simp [addPair]
  have hmem : ∀ c, c ≠ r → r ∉ U.decomp c := fun c hc h => hc (hr.only c h)
  have hchk : ∀ n, (addPair U b m r).chk n [b, m] = (addPair U b m r).chk n [r] := by
    intro n
    rw [chk_pair (by simp [hp.ne.symm, Ne.symm hm2])]
    have : U.lead b ≠ U.dlen b := by rw [hb.lead]; exact fun h => hb.dlen h.symm
    simp only [chk, nxt, addPair, hb.lead, hb.trail, hr.lead, hp.mlead, hp.mdlen, if_true]
    rw [if_neg (show ¬ 0 = U.dlen b from fun h => hb.dlen h.symm)]
    simp [maxNonstarters]
  refine
    { law := ?_
      end_inert := fun c hc => hin c (hU.end_inert c hc) (hU.end_assigned c hc)
      unassigned_inert := ?_
      ctl_inert := fun c hc => hin c (hU.ctl_inert c hc) (hU.assigned_ascii c (by omega))
      wj_inert := hin WJ hU.wj_inert hp.wj
      ok_decomp := ?_
      ok_compose := ?_
      ok_cjk := hU.ok_cjk
      cjk_ne := hU.cjk_ne
      legacy_no := hU.legacy_no
      start_decomp := ?_
      start_compose := ?_
      start_cjk := hU.start_cjk
      start_lead := hU.start_lead
      start_second := ?_
      start_unassigned := ?_
      start_ascii := hU.start_ascii
      start_cgj := hU.start_cgj
      assigned_ascii := fun c hc => hmono c (hU.assigned_ascii c hc)
      assigned_cgj := hmono _ hU.assigned_cgj
      dlen_pos := ?_
      end_assigned := fun c hc => hmono c (hU.end_assigned c hc)
      repl_assigned := ?_ }
  · refine
      { decomp_ne := ?_
        decomp_idem := ?_
        decomp_sorted := ?_
        compose_decomp := ?_
        compose_ccc := ?_
        qc_yes := ?_
        qc_self := ?_
        qc_compose := ?_
        lead_le := hU.law.lead_le
        trail_le := ?_
        chk_decomp := ?_
        chk_compose := ?_
        nonstarter_lead := ?_
        inert_cgj := hin _ hU.law.inert_cgj hU.assigned_cgj
        inert_nl := hin _ hU.law.inert_nl (hU.assigned_ascii _ (by decide))
        cjk_no := hU.law.cjk_no
        ascii := ?_ }
    · intro c
      by_cases hc : c = r
      · simp [hc, hdecr]
      · rw [hdec c hc]; exact hU.law.decomp_ne c
    · intro c d hd
      by_cases hc : c = r
      · rw [hc, hdecr] at hd
        rcases (show d = b ∨ d = m by simpa using hd) with rfl | rfl
        · rw [hdec _ hp.ne, hb.decomp]
        · rw [hdec _ hm2, hp.mdecomp]
      · rw [hdec c hc] at hd
        rw [hdec d fun e => hmem c hc (e ▸ hd)]
        exact hU.law.decomp_idem c d hd
    · intro c
      by_cases hc : c = r
      · rw [hc, hdecr]
        have : U.ccc b = 0 := hb.ccc
        simp [addPair, this]
      · rw [hdec c hc]; exact hU.law.decomp_sorted c
    · intro k y x h
      rcases compose_pair h with ⟨rfl, rfl, rfl⟩ | h
      · rw [hdecr, hdec _ hp.ne, hb.decomp]; rfl
      · rw [hdec x (result_ne hU h hp.newr), hdec k, hU.law.compose_decomp _ _ _ h]
        rintro rfl
        rename_i g
        rw [hr.first] at g; simp at g
    · intro k y x h
      rcases compose_pair h with ⟨rfl, rfl, rfl⟩ | h
      · exact ⟨hb.ccc, hr.ccc⟩
      · exact hU.law.compose_ccc _ _ _ h
    · intro c hq
      by_cases hc : c = r
      · subst hc
        refine ⟨⟨b, [m], hdecr, by simp [chain, addPair]⟩, fun d ds hd k => ?_⟩
        rw [hdecr] at hd
        injection hd with hd _
        subst hd
        simp [addPair, Ne.symm hm1, hb.second]
      · obtain ⟨⟨d0, ds0, h1, h2⟩, h3⟩ := hU.law.qc_yes c hq
        refine ⟨⟨d0, ds0, by rw [hdec c hc, h1], chain_pair hU hp h2⟩, fun d ds hd k => ?_⟩
        rw [hdec c hc] at hd
        have h4 := h3 d ds hd
        have : d ≠ m := by
          rintro rfl
          obtain ⟨k, x, h⟩ := hp.mused
          rw [h4] at h; simp at h
        simp [addPair, this, h4]
    · intro c hd
      by_cases hc : c = r
      · rw [hc]; simp [addPair, hr.qc]
      · rw [hdec c hc] at hd; exact hU.law.qc_self c hd
    · intro k y x h
      rcases compose_pair h with ⟨rfl, rfl, rfl⟩ | h
      · simp [addPair, hr.qc]
      · exact hU.law.qc_compose _ _ _ h
    · intro c
      simp only [addPair]
      split
      · decide
      · exact hU.law.trail_le c
    · intro c n
      by_cases hc : c = r
      · rw [hc, hdecr]; exact hchk n
      · rw [hdec c hc, chk_pair (hmem c hc), chk_pair (by simpa using Ne.symm hc)]
        exact hU.law.chk_decomp c n
    · intro k y x h n m' hm'
      rcases compose_pair h with ⟨rfl, rfl, rfl⟩ | h
      · rw [← hchk]; exact hm'
      · have hk : k ≠ r := by rintro rfl; rename_i g; rw [hr.first] at g; simp at g
        have hy : y ≠ r := by rintro rfl; rename_i g; rw [hr.second] at g; simp at g
        rw [chk_pair (by simpa using ⟨Ne.symm hk, Ne.symm hy⟩)] at hm'
        rw [chk_pair (by simpa using (result_ne hU h hp.newr).symm)]
        exact hU.law.chk_compose _ _ _ h _ _ hm'
    · intro c h1 h2
      by_cases hc : c = r
      · subst hc; exact absurd hr.ccc h1
      · rw [hdec c hc] at h2
        simp only [addPair, hc, if_false]
        exact hU.law.nonstarter_lead c h1 h2
    · intro c hc
      have := hasn c (hU.assigned_ascii c hc)
      simp only [addPair, this.2, if_false]
      exact hU.law.ascii c hc
  · intro c hc
    simp only [addPair, Bool.or_eq_false_iff, beq_eq_false_iff_ne] at hc
    have hi := hU.unassigned_inert c hc.2
    exact inert_pair hi hc.1.1 (hmi c hi) hc.1.2
  · intro c h d hd
    by_cases hc : c = r
    · rw [hc, hdecr] at hd
      rcases (show d = b ∨ d = m by simpa using hd) with rfl | rfl
      · exact hp.okb
      · exact hp.okm
    · rw [hdec c hc] at hd; exact hU.ok_decomp c h d hd
  · intro k y x h
    rcases compose_pair h with ⟨rfl, rfl, rfl⟩ | h
    · exact hp.okr
    · exact hU.ok_compose _ _ _ h
  · intro c hs d ds hd
    by_cases hc : c = r
    · rw [hc, hdecr] at hd
      injection hd with hd _
      subst hd
      exact hU.start_unassigned _ hp.newb
    · rw [hdec c hc] at hd; exact hU.start_decomp c hs d ds hd
  · intro k y x h hs
    rcases compose_pair h with ⟨rfl, rfl, rfl⟩ | h
    · exact hU.start_unassigned _ hp.newr
    · exact hU.start_compose _ _ _ h hs
  · rintro c hs d ds hd ⟨k, x, h⟩
    by_cases hc : c = r
    · rw [hc, hdecr] at hd
      injection hd with hd _
      subst hd
      rcases compose_pair h with ⟨-, h, -⟩ | h
      · exact absurd h.symm hm1
      · rw [hb.second] at h; simp at h
    · rw [hdec c hc] at hd
      rcases compose_pair h with ⟨-, rfl, -⟩ | h
      · exact hU.start_second c hs _ ds hd hp.mused
      · exact hU.start_second c hs d ds hd ⟨k, x, h⟩
  · intro c hc
    simp only [addPair, Bool.or_eq_false_iff] at hc
    exact hU.start_unassigned c hc.2
  · intro c
    simp only [addPair]
    split
    · decide
    · exact hU.dlen_pos c
  · intro c d hd
    rcases hU.repl_assigned c d hd with h | h
    · exact Or.inl h
    · exact Or.inr ⟨hmono d h.1, h.2⟩

theorem startLaws_pair (hU : TextLaws U) (hS : StartLaws U) {b m r : Char} (hp : PairOk U b m r) : StartLaws (addPair U b m r) where
  decomp c d ds h hd := by
    by_cases hc : c = r
    · subst hc; exact hU.start_unassigned _ hp.newr
    · simp only [addPair, hc, if_false] at h; exact hS.decomp c d ds h hd
  compose k y x h hx := by
    rcases compose_pair h with ⟨rfl, rfl, rfl⟩ | h
    · exact hU.start_unassigned _ hp.newb
    · exact hS.compose k y x h hx
  cjk := hS.cjk
  cjk_jamo := hS.cjk_jamo

theorem extends_pair {b m r : Char} (hb : isAssigned U b = false) (hr : isAssigned U r = false) :
    Extends U (addPair U b m r) := by
  have hne : ∀ c, isAssigned U c = true → c ≠ b ∧ c ≠ r := by
    intro c hc
    constructor <;> rintro rfl
    · rw [hb] at hc; simp at hc
    · rw [hr] at hc; simp at hc
  refine ⟨fun c hc => ?_, fun c hc => rfl, fun c hc => ?_, fun x y hx hy => ?_, fun c hc => rfl, fun c hc => ?_, fun c hc => ?_, fun c hc => rfl⟩
  · simp only [isAssigned, Bool.or_eq_true] at hc ⊢
    rcases hc with hc | hc
    · left; simp [addPair, hc]
    · exact Or.inr hc
  · simp [addPair, (hne c hc).2]
  · simp [addPair, (hne x hx).1]
  · simp [addPair, (hne c hc).2]
  · simp [addPair, (hne c hc).2]

/-- What the new scalar and its equivalent are like. -/
structure SingletonOk (U : Ucd) (c d : Char) : Prop where
  newc : U.assigned c = false
  oldd : U.assigned d = true
  okd : okChar d = true
  ddecomp : U.decomp d = [d]
  dccc : U.ccc d = 0
  dlead : U.lead d = 0
  dtrail : U.trail d = 0
  dend : isEnd d = true
  dctl : 0x20 < d.toNat
  dstart : isStart U d = true
  second : ∀ k, U.compose k d = none
  wj : U.assigned WJ = true ∧ d ≠ WJ ∧ d ≠ CGJ

theorem inert_singleton {c d x : Char} (h : U.Inert x) (hc : x ≠ c) (hd : x ≠ d) : (addSingleton U c d).Inert x where
  ccc := h.ccc
  decomp := by simp [addSingleton, hc, h.decomp]
  first := h.first
  second := h.second
  only y hy := by
    by_cases hyc : y = c
    · simp [addSingleton, hyc, hd] at hy
    · simp only [addSingleton, hyc, if_false] at hy; exact h.only y hy
  lead := h.lead
  trail := h.trail
  dlen := h.dlen
  qc := by simp [addSingleton, hc, h.qc]
  cjk := h.cjk
  cjk_only := h.cjk_only

theorem chain_singleton {c d : Char} {ds : List Char} : ∀ {k : Char}, (addSingleton U c d).chain k ds = U.chain k ds := by
  induction ds with
  | nil => intro k; rfl
  | cons e ds ih =>
    intro k
    simp only [chain]
    show (U.compose k e).bind _ = _
    congr 1
    funext x
    exact ih

theorem textLaws_singleton (hU : TextLaws U) {c d : Char} (hp : SingletonOk U c d) : TextLaws (addSingleton U c d) := by
  have hci := hU.unassigned_inert c hp.newc
  have hcd : d ≠ c := by rintro rfl; have := hp.oldd; rw [hp.newc] at this; simp at this
  have hmono : ∀ x, U.assigned x = true → (addSingleton U c d).assigned x = true := fun x hx => by simp [addSingleton, hx]
  have hasn : ∀ x, U.assigned x = true → x ≠ c := by rintro x hx rfl; rw [hp.newc] at hx; simp at hx
  have hdec : ∀ x, x ≠ c → (addSingleton U c d).decomp x = U.decomp x := fun x hx => by simp [addSingleton, hx]
  have hdecc : (addSingleton U c d).decomp c = [d] := by simp [addSingleton]
  have hmem : ∀ x, x ≠ c → c ∉ U.decomp x := fun x hx h => hx (hci.only x h)
  have hchk : ∀ s n, (addSingleton U c d).chk n s = U.chk n s := fun s => chk_old fun x _ => ⟨rfl, rfl, rfl⟩
  refine
    { law := ?_
      end_inert := fun x hx => inert_singleton (hU.end_inert x hx) (hasn x (hU.end_assigned x hx))
        (by rintro rfl; rw [hp.dend] at hx; simp at hx)
      unassigned_inert := ?_
      ctl_inert := fun x hx => inert_singleton (hU.ctl_inert x hx) (hasn x (hU.assigned_ascii x (by omega)))
        (by rintro rfl; have := hp.dctl; omega)
      wj_inert := inert_singleton hU.wj_inert (hasn _ hp.wj.1) (Ne.symm hp.wj.2.1)
      ok_decomp := ?_
      ok_compose := hU.ok_compose
      ok_cjk := hU.ok_cjk
      cjk_ne := hU.cjk_ne
      legacy_no := ?_
      start_decomp := ?_
      start_compose := hU.start_compose
      start_cjk := hU.start_cjk
      start_lead := hU.start_lead
      start_second := ?_
      start_unassigned := ?_
      start_ascii := hU.start_ascii
      start_cgj := hU.start_cgj
      assigned_ascii := fun x hx => hmono x (hU.assigned_ascii x hx)
      assigned_cgj := hmono _ hU.assigned_cgj
      dlen_pos := hU.dlen_pos
      end_assigned := fun x hx => hmono x (hU.end_assigned x hx)
      repl_assigned := ?_ }
  · refine
      { decomp_ne := ?_
        decomp_idem := ?_
        decomp_sorted := ?_
        compose_decomp := ?_
        compose_ccc := hU.law.compose_ccc
        qc_yes := ?_
        qc_self := ?_
        qc_compose := ?_
        lead_le := hU.law.lead_le
        trail_le := hU.law.trail_le
        chk_decomp := ?_
        chk_compose := ?_
        nonstarter_lead := ?_
        inert_cgj := inert_singleton hU.law.inert_cgj (hasn _ hU.assigned_cgj) (Ne.symm hp.wj.2.2)
        inert_nl := inert_singleton hU.law.inert_nl (hasn _ (hU.assigned_ascii _ (by decide)))
          (by intro h; have := hp.dctl; rw [← h] at this; simp at this)
        cjk_no := ?_
        ascii := ?_ }
    · intro x
      by_cases hx : x = c
      · simp [hx, hdecc]
      · rw [hdec x hx]; exact hU.law.decomp_ne x
    · intro x y hy
      by_cases hx : x = c
      · rw [hx, hdecc, List.mem_singleton] at hy
        rw [hy, hdec d hcd, hp.ddecomp]
      · rw [hdec x hx] at hy
        rw [hdec y fun e => hmem x hx (e ▸ hy)]
        exact hU.law.decomp_idem x y hy
    · intro x
      by_cases hx : x = c
      · rw [hx, hdecc]; simp
      · rw [hdec x hx]; exact hU.law.decomp_sorted x
    · intro k y x h
      have h : U.compose k y = some x := h
      rw [hdec x (result_ne hU h hp.newc), hdec k, hU.law.compose_decomp _ _ _ h]
      rintro rfl
      rename_i g
      rw [hci.first] at g; simp at g
    · intro x hq
      by_cases hx : x = c
      · simp [addSingleton, hx] at hq
      · simp only [addSingleton, hx, if_false] at hq
        obtain ⟨⟨d0, ds0, h1, h2⟩, h3⟩ := hU.law.qc_yes x hq
        exact ⟨⟨d0, ds0, by rw [hdec x hx, h1], by rw [chain_singleton, h2]⟩, fun y ys hy k => h3 y ys (by rw [← hdec x hx]; exact hy) k⟩
    · intro x hd
      by_cases hx : x = c
      · subst hx; rw [hdecc] at hd; exact absurd (by simpa using hd) hcd
      · rw [hdec x hx] at hd
        simp only [addSingleton, hx, if_false]
        exact hU.law.qc_self x hd
    · intro k y x h
      have h : U.compose k y = some x := h
      simp only [addSingleton, result_ne hU h hp.newc, if_false]
      exact hU.law.qc_compose _ _ _ h
    · intro x n
      rw [hchk, hchk]
      by_cases hx : x = c
      · rw [hx, hdecc]
        have h1 : U.dlen d ≠ 0 := hU.dlen_pos d
        simp only [chk, nxt, hp.dlead, hp.dtrail, hci.lead, hci.trail]
        rw [if_neg (show ¬ 0 = U.dlen d from fun h => h1 h.symm), if_neg (show ¬ 0 = U.dlen c from fun h => hci.dlen h.symm)]
      · rw [hdec x hx]; exact hU.law.chk_decomp x n
    · intro k y x h n m' hm'
      rw [hchk] at hm' ⊢
      exact hU.law.chk_compose _ _ _ h _ _ hm'
    · intro x h1 h2
      by_cases hx : x = c
      · subst hx; exact absurd hci.ccc h1
      · rw [hdec x hx] at h2; exact hU.law.nonstarter_lead x h1 h2
    · intro x hx
      by_cases hxc : x = c
      · subst hxc; exact absurd hci.cjk hx
      · simp only [addSingleton, hxc, if_false]; exact hU.law.cjk_no x hx
    · intro x hx
      simp only [addSingleton, hasn x (hU.assigned_ascii x hx), if_false]
      exact hU.law.ascii x hx
  · intro x hx
    simp only [addSingleton, Bool.or_eq_false_iff, beq_eq_false_iff_ne] at hx
    exact inert_singleton (hU.unassigned_inert x hx.2) hx.1 (by rintro rfl; have := hp.oldd; rw [hx.2] at this; simp at this)
  · intro x h y hy
    by_cases hx : x = c
    · rw [hx, hdecc, List.mem_singleton] at hy; rw [hy]; exact hp.okd
    · rw [hdec x hx] at hy; exact hU.ok_decomp x h y hy
  · intro x hx
    simp only [addSingleton]
    split
    · rfl
    · exact hU.legacy_no x hx
  · intro x hs y ys hy
    by_cases hx : x = c
    · rw [hx, hdecc] at hy
      injection hy with hy _
      subst hy
      exact hp.dstart
    · rw [hdec x hx] at hy; exact hU.start_decomp x hs y ys hy
  · rintro x hs y ys hy ⟨k, z, h⟩
    by_cases hx : x = c
    · rw [hx, hdecc] at hy
      injection hy with hy _
      subst hy
      have h : U.compose k _ = some z := h
      rw [hp.second] at h; simp at h
    · rw [hdec x hx] at hy; exact hU.start_second x hs y ys hy ⟨k, z, h⟩
  · intro x hx
    simp only [addSingleton, Bool.or_eq_false_iff] at hx
    exact hU.start_unassigned x hx.2
  · intro x y hy
    rcases hU.repl_assigned x y hy with h | h
    · exact Or.inl h
    · exact Or.inr ⟨hmono y h.1, h.2⟩

theorem extends_singleton {c d : Char} (hc : isAssigned U c = false) : Extends U (addSingleton U c d) := by
  have hne : ∀ x, isAssigned U x = true → x ≠ c := by rintro x hx rfl; rw [hc] at hx; simp at hx
  refine ⟨fun x hx => ?_, fun x hx => rfl, fun x hx => ?_, fun x y hx hy => rfl, fun x hx => rfl, fun x hx => rfl, fun x hx => rfl, fun x hx => rfl⟩
  · simp only [isAssigned, Bool.or_eq_true] at hx ⊢
    rcases hx with hx | hx
    · left; simp [addSingleton, hx]
    · exact Or.inr hx
  · simp [addSingleton, hne x hx]

end Verif
