import Verif.IsolationTheory
import Verif.StringTheory

/-!
# Two versions of the Unicode data

The library gets its Unicode data from its dependencies.  `Extends U V` says that `V` is newer than `U`
in the way the Unicode stability policies allow: nothing changes for scalars that `U` has assigned.
-/

namespace Verif
open Ucd

/-- `V` is a newer version of the Unicode data than `U` (Unicode's stability policies for assigned scalars: combining classes
and decompositions do not change, and no new composition is made of two old scalars). -/
structure Extends (U V : Ucd) : Prop where
  assigned : ∀ c, isAssigned U c = true → isAssigned V c = true
  ccc : ∀ c, isAssigned U c = true → V.ccc c = U.ccc c
  decomp : ∀ c, isAssigned U c = true → V.decomp c = U.decomp c
  compose : ∀ a b, isAssigned U a = true → isAssigned U b = true → V.compose a b = U.compose a b
  lead : ∀ c, isAssigned U c = true → V.lead c = U.lead c
  trail : ∀ c, isAssigned U c = true → V.trail c = U.trail c
  dlen : ∀ c, isAssigned U c = true → V.dlen c = U.dlen c
  cjk : ∀ c, isAssigned U c = true → V.cjk c = U.cjk c

theorem Extends.refl (U : Ucd) : Extends U U := ⟨fun _ h => h, by simp, by simp, by simp, by simp, by simp, by simp, by simp⟩

theorem Extends.trans {U V W : Ucd} (h : Extends U V) (k : Extends V W) : Extends U W where
  assigned c hc := k.assigned c (h.assigned c hc)
  ccc c hc := by rw [k.ccc c (h.assigned c hc), h.ccc c hc]
  decomp c hc := by rw [k.decomp c (h.assigned c hc), h.decomp c hc]
  compose a b ha hb := by rw [k.compose a b (h.assigned a ha) (h.assigned b hb), h.compose a b ha hb]
  lead c hc := by rw [k.lead c (h.assigned c hc), h.lead c hc]
  trail c hc := by rw [k.trail c (h.assigned c hc), h.trail c hc]
  dlen c hc := by rw [k.dlen c (h.assigned c hc), h.dlen c hc]
  cjk c hc := by rw [k.cjk c (h.assigned c hc), h.cjk c hc]

variable {U V : Ucd}

theorem unassigned_of {c : Char} (h : isAssigned U c = false) : U.assigned c = false := by
  simp only [isAssigned, Bool.or_eq_false_iff] at h; exact h.1

theorem decomp_assigned (hU : TextLaws U) {c d : Char} (hc : isAssigned U c = true) (hd : d ∈ U.decomp c) : isAssigned U d = true := by
  cases h : isAssigned U d with
  | true => rfl
  | false =>
    have := (hU.unassigned_inert d (unassigned_of h)).only c hd
    rw [this, h] at hc; simp at hc

theorem compose_assigned (hU : TextLaws U) {k b r : Char} (h : U.compose k b = some r) : isAssigned U r = true := by
  cases ha : isAssigned U r with
  | true => rfl
  | false =>
    have h1 := (hU.unassigned_inert r (unassigned_of ha)).decomp
    have h2 := hU.law.compose_decomp _ _ _ h
    have h3 := hU.law.decomp_ne k
    rw [h1] at h2
    cases hk : U.decomp k with
    | nil => exact absurd hk h3
    | cons x xs => rw [hk] at h2; simp at h2

theorem flatMap_same (h : Extends U V) {s : List Char} (hs : ∀ c ∈ s, isAssigned U c = true) : s.flatMap V.decomp = s.flatMap U.decomp := by
  induction s with
  | nil => rfl
  | cons c s ih => rw [List.flatMap_cons, List.flatMap_cons, h.decomp c (hs c (by simp)), ih fun d hd => hs d (by simp [hd])]

theorem ins_same (h : Extends U V) {x : Char} {l : List Char} (hx : isAssigned U x = true) (hl : ∀ c ∈ l, isAssigned U c = true) :
    V.ins x l = U.ins x l := by
  induction l with
  | nil => rfl
  | cons y l ih =>
    simp only [ins]
    rw [h.ccc y (hl y (by simp)), h.ccc x hx, ih fun d hd => hl d (by simp [hd])]

theorem mem_ins_iff {x c : Char} {l : List Char} (h : c ∈ U.ins x l) : c = x ∨ c ∈ l := by
  induction l with
  | nil => simpa [ins] using h
  | cons y l ih =>
    simp only [ins] at h
    split at h
    · rcases List.mem_cons.1 h with h | h
      · exact Or.inr (by simp [h])
      · rcases ih h with h | h
        · exact Or.inl h
        · exact Or.inr (by simp [h])
    · simpa using h

theorem mem_reorder_of {c : Char} {l : List Char} (h : c ∈ U.reorder l) : c ∈ l := by
  induction l with
  | nil => exact h
  | cons x l ih =>
    simp only [reorder] at h
    rcases mem_ins_iff h with h | h
    · simp [h]
    · simp [ih h]

theorem reorder_same (h : Extends U V) {l : List Char} (hl : ∀ c ∈ l, isAssigned U c = true) : V.reorder l = U.reorder l := by
  induction l with
  | nil => rfl
  | cons x l ih =>
    simp only [reorder]
    rw [ih fun d hd => hl d (by simp [hd])]
    exact ins_same h (hl x (by simp)) fun c hc => hl c (by simp [mem_reorder_of hc])

theorem recomp_same (hU : TextLaws U) (h : Extends U V) {l : List Char} : ∀ {k : Option Char} {last : Option Nat} {buf : List Char},
    (∀ c ∈ l, isAssigned U c = true) → (∀ c ∈ k, isAssigned U c = true) → V.recomp k last buf l = U.recomp k last buf l := by
  induction l with
  | nil => intro k last buf _ _; cases k <;> simp [recomp]
  | cons c l ih =>
    intro k last buf hl hk
    have hc := hl c (by simp)
    have hl' : ∀ d ∈ l, isAssigned U d = true := fun d hd => hl d (by simp [hd])
    have hcs : ∀ x ∈ some c, isAssigned U x = true := by simp [hc]
    cases k with
    | none =>
      simp only [recomp]
      rw [h.ccc c hc, ih hl' hcs, ih (k := none) hl' (by simp)]
    | some k =>
      have hk' := hk k rfl
      cases last with
      | none =>
        simp only [recomp]
        rw [h.compose k c hk' hc, h.ccc c hc, ih hl' hcs]
        cases hq : U.compose k c with
        | none => simp only; rw [ih hl' hk]
        | some r => simp only; rw [ih hl' (by simpa using compose_assigned hU hq)]
      | some n =>
        simp only [recomp]
        rw [h.compose k c hk' hc, h.ccc c hc, ih hl' hcs]
        cases hq : U.compose k c with
        | none => simp only; rw [ih hl' hk]
        | some r => simp only; rw [ih hl' hk, ih (k := some r) hl' (by simpa using compose_assigned hU hq)]

/-- The normal form of old text does not change. -/
theorem nfc_same (hU : TextLaws U) (h : Extends U V) {s : List Char} (hs : ∀ c ∈ s, isAssigned U c = true) : V.nfc s = U.nfc s := by
  have hd : ∀ c ∈ s.flatMap U.decomp, isAssigned U c = true := by
    intro c hc
    obtain ⟨x, hx, hc⟩ := List.mem_flatMap.1 hc
    exact decomp_assigned hU (hs x hx) hc
  unfold nfc nfd
  rw [flatMap_same h hs, reorder_same h hd]
  exact recomp_same hU h (fun c hc => hd c (mem_reorder_of hc)) (by simp)

theorem chk_same (h : Extends U V) {s : List Char} (hs : ∀ c ∈ s, isAssigned U c = true) : ∀ n, V.chk n s = U.chk n s := by
  induction s with
  | nil => intro n; rfl
  | cons c s ih =>
    intro n
    have hc := hs c (by simp)
    simp only [chk, nxt]
    rw [h.lead c hc, h.trail c hc, h.dlen c hc, ih fun d hd => hs d (by simp [hd])]

theorem nss_same (hU : TextLaws U) (hV : V.Lawful) (h : Extends U V) {s : List Char} (hs : ∀ c ∈ s, isAssigned U c = true) :
    V.isNfcStreamSafe s = true ↔ U.isNfcStreamSafe s = true := by
  rw [isNfcStreamSafe_iff hV, isNfcStreamSafe_iff hU.law, chk_same h hs, nfc_same hU h hs]

theorem nss_singleton (hV : V.Lawful) {c : Char} : V.isNfcStreamSafe [c] = true ↔ V.nfc [c] = [c] := by
  rw [isNfcStreamSafe_iff hV]
  have := hV.lead_le c
  simp only [chk, Nat.zero_add, if_neg (show ¬ V.lead c > maxNonstarters by omega), Option.isSome_some, true_and]

/-- What the newer version accepts, the older one accepts: to it the new scalars are inert. -/
theorem nss_older (hU : TextLaws U) (hV : V.Lawful) (h : Extends U V) : ∀ (s : List Char), V.isNfcStreamSafe s = true →
    U.isNfcStreamSafe s = true := by
  suffices H : ∀ n (s : List Char), s.length ≤ n → V.isNfcStreamSafe s = true → U.isNfcStreamSafe s = true from
    fun s => H _ s (Nat.le_refl _)
  intro n
  induction n with
  | zero => intro s hl _; rw [List.length_eq_zero_iff.1 (Nat.le_zero.1 hl)]; exact nss_nil
  | succ n ih =>
    intro s hl hs
    by_cases hall : ∀ c ∈ s, isAssigned U c = true
    · exact (nss_same hU hV h hall).1 hs
    · obtain ⟨c, hc, ha⟩ : ∃ c ∈ s, isAssigned U c = false := by simpa using hall
      obtain ⟨x, y, rfl⟩ := List.append_of_mem hc
      have h1 : V.isNfcStreamSafe x = true := nss_prefix hV hs
      have h2 : V.isNfcStreamSafe y = true := nss_suffix hV (a := x ++ [c]) (by simpa using hs)
      simp only [List.length_append, List.length_cons] at hl
      exact (nss_inert hU.law (hU.unassigned_inert c (unassigned_of ha))).2 ⟨ih x (by omega) h1, ih y (by omega) h2⟩

/-- Isolated text stays normalized if and only if its new scalars are normalized by themselves. -/
theorem nss_newer (hU : TextLaws U) (hV : V.Lawful) (h : Extends U V) {s : List Char} (hi : Isolated U s)
    (hs : U.isNfcStreamSafe s = true) :
    V.isNfcStreamSafe s = true ↔ ∀ c ∈ s, isAssigned U c = false → V.nfc [c] = [c] := by
  constructor
  · intro hv c hc _
    obtain ⟨x, y, rfl⟩ := List.append_of_mem hc
    exact (nss_singleton hV).1 (nss_suffix hV (a := x) (nss_prefix hV (b := y) (by simpa using hv)))
  · intro hn
    have hC : isAssigned U CGJ = true := by simp [isAssigned, hU.assigned_cgj]
    suffices H : ∀ n (s : List Char), s.length ≤ n → Isolated U (CGJ :: s) → U.isNfcStreamSafe s = true →
        (∀ c ∈ s, isAssigned U c = false → V.nfc [c] = [c]) → V.isNfcStreamSafe s = true from
      H _ s (Nat.le_refl _) (hi.cons hC) hs hn
    intro n
    induction n with
    | zero => intro s hl _ _ _; rw [List.length_eq_zero_iff.1 (Nat.le_zero.1 hl)]; exact nss_nil
    | succ n ih =>
      intro s hl hi hs hn
      by_cases hall : ∀ c ∈ s, isAssigned U c = true
      · exact (nss_same hU hV h hall).2 hs
      · by_cases hm : CGJ ∈ s
        · obtain ⟨x, y, rfl, hx⟩ : ∃ x y, s = x ++ CGJ :: y ∧ CGJ ∉ x := by
            have := List.mem_iff_append.1 hm
            clear ih hi hs hn hall hl this
            induction s with
            | nil => simp at hm
            | cons d s ih =>
              by_cases hd : d = CGJ
              · exact ⟨[], s, by simp [hd], by simp⟩
              · obtain ⟨x, y, h1, h2⟩ := ih (by simpa [Ne.symm hd] using hm)
                exact ⟨d :: x, y, by simp [h1], by simp [h2, Ne.symm hd]⟩
          have hs' := (nss_inert hU.law hU.law.inert_cgj).1 hs
          refine (nss_inert hV hV.inert_cgj).2 ⟨?_, ih y (by simp at hl; omega) (hi.tail (x := CGJ :: x)) hs'.2
            fun c hc => hn c (by simp [hc])⟩
          by_cases hax : ∀ c ∈ x, isAssigned U c = true
          · exact (nss_same hU hV h hax).2 hs'.1
          · obtain ⟨c, hc, ha⟩ : ∃ c ∈ x, isAssigned U c = false := by simpa using hax
            obtain ⟨p, q, rfl⟩ := List.append_of_mem hc
            obtain ⟨h1, h2⟩ := hi (CGJ :: p) c (q ++ CGJ :: y) (by simp) ha
            have hp : p = [] := by
              rcases List.eq_nil_or_concat p with hp | ⟨p', e, hp⟩
              · exact hp
              · rw [List.concat_eq_append] at hp; subst hp
                rw [← List.cons_append, List.getLast?_append] at h1
                simp at h1
                exact absurd hx (by simp [h1])
            have hq : q = [] := by
              cases q with
              | nil => rfl
              | cons e q =>
                simp at h2
                exact absurd hx (by simp [h2])
            subst hp hq
            exact (nss_singleton hV).2 (hn c (by simp) ha)
        · obtain ⟨c, hc, ha⟩ : ∃ c ∈ s, isAssigned U c = false := by simpa using hall
          obtain ⟨p, q, rfl⟩ := List.append_of_mem hc
          obtain ⟨-, h2⟩ := hi (CGJ :: p) c q (by simp) ha
          exact absurd (List.mem_of_mem_head? h2) fun hq => hm (by simp [hq])

theorem start_same (h : Extends U V) {c : Char} (hc : isAssigned U c = true) : isStart V c = isStart U c := by
  unfold isStart isStarter isNfStarter
  rw [h.ccc c hc]

end Verif
