import Verif.NormTheory

/-!
# Theory of the stream-safe format and of `is_nfc_stream_safe`
-/

namespace Verif
namespace Ucd
variable {U : Ucd}

theorem chk_append {n : Nat} {a b : List Char} :
    U.chk n (a ++ b) = (U.chk n a).bind (fun m => U.chk m b) := by
  induction a generalizing n with
  | nil => rfl
  | cons c a ih =>
    simp only [List.cons_append, chk]
    split
    · rfl
    · exact ih

theorem chk_cons {n : Nat} {c : Char} {s : List Char} :
    U.chk n (c :: s) = (U.chk n [c]).bind (fun m => U.chk m s) := by
  rw [← List.singleton_append, chk_append]

theorem streamSafe_of_chk {s : List Char} : ∀ {n : Nat}, (U.chk n s).isSome → U.streamSafe n s = s := by
  induction s with
  | nil => intro n _; rfl
  | cons c s ih =>
    intro n h
    simp only [chk, streamSafe] at h ⊢
    split at h
    · simp at h
    · rename_i hc
      rw [if_neg hc, ih h]

theorem chk_inert {c : Char} (h : U.Inert c) (n : Nat) (hn : n ≤ maxNonstarters) : U.chk n [c] = some 0 := by
  have h1 := h.lead
  have h2 := h.dlen
  simp only [chk, nxt, h.lead, h.trail]
  rw [if_neg (by omega), if_neg (fun h => h2 h.symm)]

theorem nxt_le (n : Nat) (c : Char) (h : n + U.lead c ≤ maxNonstarters)
    (ht : U.trail c ≤ maxNonstarters) : U.nxt n c ≤ maxNonstarters := by
  simp only [nxt]; split <;> omega

theorem chk_streamSafe (hU : U.Lawful) {s : List Char} : ∀ {n : Nat},
    n ≤ maxNonstarters → (U.chk n (U.streamSafe n s)).isSome := by
  induction s with
  | nil => intro n _; rfl
  | cons c s ih =>
    intro n hn
    have hl := hU.lead_le c
    have ht := hU.trail_le c
    simp only [streamSafe]
    split
    · rw [chk_cons, chk_inert hU.inert_cgj n hn]
      simp only [Option.bind_some, chk]
      rw [if_neg (by omega)]
      exact ih (nxt_le _ _ (by omega) ht)
    · simp only [chk]
      rw [if_neg (by omega)]
      exact ih (nxt_le _ _ (by omega) ht)

/-! ## Counting is invariant under NFC -/

theorem chk_flatMap (hU : U.Lawful) (s : List Char) : ∀ n, U.chk n (s.flatMap U.decomp) = U.chk n s := by
  induction s with
  | nil => intro n; rfl
  | cons c s ih =>
    intro n
    rw [List.flatMap_cons, chk_append, hU.chk_decomp, chk_cons (c := c) (s := s)]
    congr 1
    funext m
    exact ih m

theorem chk_nonstarter (hU : U.Lawful) {c : Char} (hd : U.decomp c = [c]) (hc : U.ccc c ≠ 0) (n : Nat)
    (s : List Char) :
    U.chk n (c :: s) = if n + U.dlen c > maxNonstarters then none else U.chk (n + U.dlen c) s := by
  have := hU.nonstarter_lead c hc hd
  simp [chk, nxt, this]

theorem chk_swap (hU : U.Lawful) {x y : Char} (hx : U.decomp x = [x]) (hx0 : U.ccc x ≠ 0)
    (hy : U.decomp y = [y]) (hy0 : U.ccc y ≠ 0) (n : Nat) (s : List Char) :
    U.chk n (x :: y :: s) = U.chk n (y :: x :: s) := by
  rw [chk_nonstarter hU hx hx0, chk_nonstarter hU hy hy0, chk_nonstarter hU hy hy0,
    chk_nonstarter hU hx hx0]
  have e : n + U.dlen x + U.dlen y = n + U.dlen y + U.dlen x := by omega
  rw [e]
  split <;> split <;> (first | rfl | (split <;> first | rfl | omega) | omega)

theorem chk_ins (hU : U.Lawful) {x : Char} {l : List Char} (hx : U.decomp x = [x])
    (hl : ∀ c ∈ l, U.decomp c = [c]) : ∀ n, U.chk n (U.ins x l) = U.chk n (x :: l) := by
  induction l with
  | nil => intro n; rfl
  | cons y l ih =>
    intro n
    simp only [ins]
    split
    · rename_i h
      rw [chk_swap hU hx (by omega) (hl y (by simp)) (by omega)]
      rw [chk_cons, chk_cons (c := y) (s := x :: l)]
      congr 1
      funext m
      exact ih (fun c hc => hl c (by simp [hc])) m
    · rfl

theorem chk_reorder (hU : U.Lawful) {l : List Char} (hl : ∀ c ∈ l, U.decomp c = [c]) :
    ∀ n, U.chk n (U.reorder l) = U.chk n l := by
  induction l with
  | nil => intro n; rfl
  | cons x l ih =>
    intro n
    have hl' : ∀ c ∈ l, U.decomp c = [c] := fun c hc => hl c (by simp [hc])
    simp only [reorder]
    rw [chk_ins hU (hl x (by simp)) (fun c hc => hl' c (mem_reorder.1 hc))]
    rw [chk_cons, chk_cons (c := x) (s := l)]
    congr 1
    funext m
    exact ih hl' m

theorem chk_nfd (hU : U.Lawful) (s : List Char) (n : Nat) : U.chk n (U.nfd s) = U.chk n s := by
  rw [nfd, chk_reorder hU, chk_flatMap hU]
  intro c hc
  obtain ⟨x, _, hx⟩ := List.mem_flatMap.1 hc
  exact hU.decomp_idem x c hx

theorem chk_move (hU : U.Lawful) {ch : Char} (hd : U.decomp ch = [ch]) (h0 : U.ccc ch ≠ 0)
    {buf : List Char} (hb : ∀ m ∈ buf, U.ccc m ≠ 0 ∧ U.decomp m = [m]) (rest : List Char) :
    ∀ n, U.chk n (buf ++ ch :: rest) = U.chk n (ch :: buf ++ rest) := by
  induction buf with
  | nil => intro n; rfl
  | cons m buf ih =>
    intro n
    have hm := hb m (by simp)
    simp only [List.cons_append]
    rw [chk_swap hU hd h0 hm.2 hm.1]
    rw [chk_cons, chk_cons (c := m) (s := ch :: (buf ++ rest))]
    congr 1
    funext p
    exact ih (fun y hy => hb y (by simp [hy])) p

theorem chk_comp (hU : U.Lawful) {k ch k' : Char} (hc : U.compose k ch = some k') {n m : Nat}
    {s : List Char} (h : U.chk n (k :: ch :: s) = some m) : U.chk n (k' :: s) = some m := by
  have e : k :: ch :: s = [k, ch] ++ s := rfl
  rw [e, chk_append] at h
  cases h2 : U.chk n [k, ch] with
  | none => simp [h2] at h
  | some p =>
    rw [chk_cons, hU.chk_compose _ _ _ hc _ _ h2]
    simpa [h2] using h

theorem chk_recomp_some (hU : U.Lawful) {rest : List Char} : ∀ {k : Char} {last : Option Nat}
    {buf : List Char} {n m : Nat}, (∀ c ∈ rest, U.decomp c = [c]) →
    (∀ m ∈ buf, U.ccc m ≠ 0 ∧ U.decomp m = [m]) → (last = none → buf = []) →
    U.chk n (k :: buf ++ rest) = some m → U.chk n (U.recomp (some k) last buf rest) = some m := by
  induction rest with
  | nil => intro k last buf n m _ _ _ h; cases last <;> simpa [recomp] using h
  | cons ch r ih =>
    intro k last buf n m hd hb hl h
    have hd' : ∀ c ∈ r, U.decomp c = [c] := fun c hc => hd c (by simp [hc])
    have hbuff : U.ccc ch ≠ 0 → U.chk n (U.recomp (some k) (some (U.ccc ch)) (buf ++ [ch]) r) = some m := by
      intro h0
      refine ih hd' ?_ (by simp) ?_
      · intro y hy
        simp only [List.mem_append, List.mem_singleton] at hy
        rcases hy with hy | rfl
        · exact hb y hy
        · exact ⟨h0, hd _ (by simp)⟩
      · simpa using h
    have hstart : U.chk n (k :: buf ++ U.recomp (some ch) none [] r) = some m := by
      rw [chk_append] at h ⊢
      cases h2 : U.chk n (k :: buf) with
      | none => simp [h2] at h
      | some p =>
        simp only [h2, Option.bind_some] at h ⊢
        exact ih hd' (by simp) (by simp) (by simpa using h)
    cases last with
    | none =>
      have hbn := hl rfl
      subst hbn
      simp only [recomp]
      cases hc : U.compose k ch with
      | some k' => exact ih hd' (by simp) (by simp) (chk_comp hU hc (by simpa using h))
      | none =>
        simp only
        split
        · simpa using hstart
        · exact hbuff (by assumption)
    | some l =>
      simp only [recomp]
      split
      · split
        · exact hstart
        · exact hbuff (by assumption)
      · cases hc : U.compose k ch with
        | some k' =>
          refine ih hd' hb (by simp) ?_
          have h0 : U.ccc ch ≠ 0 := by omega
          have h' : U.chk n (k :: ch :: (buf ++ r)) = some m := by
            have := chk_move hU (hd ch (by simp)) h0 hb r
            rw [List.cons_append, chk_cons] at h
            rw [chk_cons]
            rw [← h]
            congr 1
            funext p
            exact (this p).symm
          simpa using chk_comp hU hc h'
        | none => exact hbuff (by omega)

theorem chk_recomp_none (hU : U.Lawful) {z : List Char} : ∀ {n m : Nat}, (∀ c ∈ z, U.decomp c = [c]) →
    U.chk n z = some m → U.chk n (U.recomp none none [] z) = some m := by
  induction z with
  | nil => intro n m _ h; simpa [recomp] using h
  | cons ch r ih =>
    intro n m hd h
    have hd' : ∀ c ∈ r, U.decomp c = [c] := fun c hc => hd c (by simp [hc])
    simp only [recomp]
    split
    · rw [chk_cons] at h ⊢
      cases h2 : U.chk n [ch] with
      | none => simp [h2] at h
      | some p =>
        simp only [h2, Option.bind_some] at h ⊢
        exact ih hd' h
    · exact chk_recomp_some hU hd' (by simp) (by simp) (by simpa using h)

/-- NFC keeps text stream-safe. -/
theorem chk_nfc (hU : U.Lawful) {s : List Char} {n m : Nat} (h : U.chk n s = some m) :
    U.chk n (U.nfc s) = some m :=
  chk_recomp_none hU (decomposed_nfd hU s) (by rw [chk_nfd hU]; exact h)

/-! ## The quick check -/

theorem quickGo_yes (hU : U.Lawful) {s : List Char} : ∀ {last n : Nat} {res : QC},
    U.quickGo last n res s = .yes → n ≤ maxNonstarters →
    (U.chk n s).isSome ∧ (∀ c ∈ s, U.qc c = .yes) ∧
      ∀ (st : Option Char) (l : Option Nat), (∀ x, l = some x → x ≤ last) → Lc U st l s := by
  induction s with
  | nil => intro last n res _ _; exact ⟨rfl, by simp, fun _ _ _ => trivial⟩
  | cons c s ih =>
    intro last n res h hn
    simp only [quickGo] at h
    have key : U.qc c = .yes → (U.ccc c = 0 ∨ last ≤ U.ccc c) → n + U.lead c ≤ maxNonstarters →
        ((U.chk (U.nxt n c) s).isSome ∧ (∀ c ∈ s, U.qc c = .yes) ∧
          ∀ (st : Option Char) (l : Option Nat), (∀ x, l = some x → x ≤ U.ccc c) → Lc U st l s) →
        (U.chk n (c :: s)).isSome ∧ (∀ x ∈ c :: s, U.qc x = .yes) ∧
          ∀ (st : Option Char) (l : Option Nat), (∀ x, l = some x → x ≤ last) → Lc U st l (c :: s) := by
      intro hq ho hle ⟨h1, h2, h3⟩
      refine ⟨by simp only [chk]; rw [if_neg (by omega)]; exact h1, ?_, ?_⟩
      · intro x hx
        rcases List.mem_cons.1 hx with rfl | hx
        · exact hq
        · exact h2 x hx
      · intro st l hl
        obtain ⟨hr, hnc⟩ := hU.qc_yes c hq
        simp only [Lc]
        refine ⟨hr, ?_⟩
        split
        · exact ⟨fun x _ _ d ds hd => hnc d ds hd x, h3 _ _ (by simp)⟩
        · rename_i h0
          refine ⟨?_, ?_, h3 _ _ (by intro x hx; injection hx with hx; omega)⟩
          · intro x hx; have := hl x hx; omega
          · intro x _ _ d0 ds _ k _
            exact hnc c [] (hr.nonstarter hU h0) k
    split at h
    · rename_i ha
      have hA := hU.ascii c ha
      have hn0 : U.nxt n c = 0 := by
        simp only [nxt]; rw [if_neg (by omega)]; omega
      refine key hA.2.1 (Or.inl hA.1) (by omega) ?_
      have := ih h (by decide)
      rw [hn0, hA.1]
      exact this
    · split at h
      · cases h
      · split at h
        · cases h
        · split at h
          · cases h
          · rename_i ha ho hq hle
            have hqy : U.qc c = .yes := by
              cases hqc : U.qc c with
              | yes => rfl
              | no => exact absurd hqc hq
              | maybe =>
                rw [if_pos hqc] at h
                exfalso
                have : ∀ (s : List Char) (a b : Nat), U.quickGo a b .maybe s ≠ .yes := by
                  intro s
                  induction s with
                  | nil => intro a b; simp [quickGo]
                  | cons y ys ih =>
                    intro a b
                    simp only [quickGo]
                    split
                    · exact ih _ _
                    · split
                      · simp
                      · split
                        · simp
                        · split
                          · simp
                          · simp only [ite_self]; exact ih _ _
                exact this _ _ _ h
            refine key hqy (by omega) (by omega) ?_
            exact ih h (nxt_le _ _ (by omega) (hU.trail_le c))

theorem quickGo_ne_no (hU : U.Lawful) {s : List Char} : ∀ {last n : Nat} {res : QC} {st : Option Char}
    {l : Option Nat}, res ≠ .no → (U.chk n s).isSome → Lc U st l s → (∀ c ∈ s.head?, U.ccc c ≠ 0 → last ≤ U.ccc c) →
    U.quickGo last n res s ≠ .no := by
  induction s with
  | nil => intro last n res st l h _ _ _; simpa [quickGo] using h
  | cons c s ih =>
    intro last n res st l hres hchk hlc hlast
    simp only [quickGo]
    have hrec := hlc.1
    simp only [chk] at hchk
    split at hchk
    · simp at hchk
    rename_i hle
    have htail : ∃ st' l', Lc U st' l' s ∧ (∀ y ∈ s.head?, U.ccc y ≠ 0 → U.ccc c ≤ U.ccc y) := by
      simp only [Lc] at hlc
      split at hlc
      · exact ⟨_, _, hlc.2.2, by intro y _ _; omega⟩
      · refine ⟨_, _, hlc.2.2.2, ?_⟩
        intro y hy hy0
        have h4 := hlc.2.2.2
        cases s with
        | nil => simp at hy
        | cons z zs =>
          simp at hy; subst hy
          simp only [Lc, hy0, if_false] at h4
          exact h4.2.1 _ rfl
    obtain ⟨st', l', h1, h2⟩ := htail
    split
    · rename_i ha
      have hA := hU.ascii c ha
      have hn0 : U.nxt n c = 0 := by
        simp only [nxt]; rw [if_neg (by omega)]; omega
      rw [hn0] at hchk
      exact ih hres hchk h1 (fun _ _ _ => Nat.zero_le _)
    · have hno : ¬ (last > U.ccc c ∧ U.ccc c ≠ 0) := by
        intro h
        have := hlast c (by simp) h.2
        omega
      rw [if_neg hno, if_neg (hrec.qc_ne_no hU)]
      refine ih ?_ hchk h1 h2
      split
      · simp
      · exact hres

/-- `is_nfc_stream_safe` decides "stream-safe and unchanged by NFC". -/
theorem isNfcStreamSafe_iff (hU : U.Lawful) {s : List Char} :
    U.isNfcStreamSafe s = true ↔ (U.chk 0 s).isSome ∧ U.nfc s = s := by
  constructor
  · intro h
    simp only [isNfcStreamSafe] at h
    split at h
    · rename_i hq
      obtain ⟨h1, _, h3⟩ := quickGo_yes hU hq (by decide)
      exact ⟨h1, nfc_of_lc hU (h3 none none (by simp))⟩
    · cases h
    · have h : s = U.nfc (U.streamSafe 0 s) := by simpa using h
      have h1 := chk_streamSafe hU (s := s) (n := 0) (by decide)
      obtain ⟨m, hm⟩ := Option.isSome_iff_exists.1 h1
      have h2 := chk_nfc hU hm
      rw [← h] at h2
      exact ⟨by simp [h2], by rw [h, nfc_nfc hU]⟩
  · intro ⟨h1, h2⟩
    have hne := quickGo_ne_no hU (s := s) (last := 0) (n := 0) (res := .yes) (by simp) h1
      ((nfc_eq_iff_lc hU).1 h2) (fun _ _ _ => Nat.zero_le _)
    simp only [isNfcStreamSafe, quick]
    cases hq : U.quickGo 0 0 .yes s with
    | yes => rfl
    | no => exact absurd hq hne
    | maybe =>
      rw [streamSafe_of_chk h1, h2]
      simp

/-- The output of stream-safe insertion followed by NFC is accepted by `is_nfc_stream_safe`. -/
theorem isNfcStreamSafe_norm (hU : U.Lawful) (s : List Char) :
    U.isNfcStreamSafe (U.nfc (U.streamSafe 0 s)) = true := by
  rw [isNfcStreamSafe_iff hU]
  obtain ⟨m, hm⟩ := Option.isSome_iff_exists.1 (chk_streamSafe hU (s := s) (n := 0) (by decide))
  exact ⟨by simp [chk_nfc hU hm], nfc_nfc hU _⟩

end Ucd
end Verif
