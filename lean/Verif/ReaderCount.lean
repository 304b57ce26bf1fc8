import Verif.ReaderLive
import Verif.Props.Errors

/-!
# How many calls a reader takes
-/

namespace Verif
open Ucd Spec
variable {U : Ucd}

/-- The last result reports the end of the stream. -/
def Ret.atEnd : Ret → Bool
  | .ok _ .end_ => true
  | _ => false

/-- What one call can do: fill the buffer without a read of the source, drop a status that was kept back, or read the source, and then
keep the status back only if the buffer is full. -/
theorem read_kinds (len : Nat) (t : TextInput) (e : Event) (src : List Event) (hl : normalizationBufferSize ≤ len)
    {r : ReadResult} (hr : readWithStatus U len t (e :: src) = r) (hp : r.ret ≠ .panic) :
    (r.src = e :: src ∧ r.ret.isOk = true ∧ len < (encode r.out).length + 4 ∧ r.input.pending = t.pending) ∨
    (r.src = e :: src ∧ t.pending ≠ .active ∧ r.input.pending = .active) ∨
    (r.src = src ∧ t.pending = .active ∧
      (r.input.pending = .active ∨ (r.ret.isOk = true ∧ len < (encode r.out).length + 4))) := by
  subst hr
  revert hp
  unfold readWithStatus
  rw [if_neg (by omega)]
  cases hd : drain U (len + 1) len t with
  | mk stop p =>
    obtain ⟨out, t'⟩ := p
    have hp' : t'.pending = t.pending := by
      have := drain_pending (U := U) (len + 1) len t
      rw [hd] at this; exact this
    cases stop with
    | panic => intro h; simp at h
    | full => intro _; exact Or.inl ⟨rfl, rfl, drain_stop_full _ _ _ _ _ hd, hp'⟩
    | empty =>
      simp only
      by_cases hpe : t'.pending = .active
      · rw [if_neg (by simp [hpe])]
        simp only [nextEvent]
        intro hp
        right; right
        cases e with
        | err => exact ⟨rfl, hp' ▸ hpe, Or.inl hpe⟩
        | data s st =>
          revert hp
          simp only
          generalize ht2 : (if st ≠ .active then _ else _ : TextInput) = t2
          have hp2 : t2.pending = .active := by
            rw [← ht2]
            split <;> exact hpe
          cases hd2 : drain U (len + 1) (len - (encode out).length) t2 with
          | mk stop2 p2 =>
            obtain ⟨out2, t3⟩ := p2
            have hp3 : t3.pending = .active := by
              have := drain_pending (U := U) (len + 1) (len - (encode out).length) t2
              rw [hd2] at this; exact this.trans hp2
            cases stop2 with
            | panic => intro h; simp at h
            | full =>
              intro _
              refine ⟨rfl, hp' ▸ hpe, Or.inr ⟨rfl, ?_⟩⟩
              have := drain_stop_full _ _ _ _ _ hd2
              simp only [encode_append, List.length_append]
              omega
            | empty =>
              intro _
              refine ⟨rfl, hp' ▸ hpe, Or.inl ?_⟩
              dsimp only
              split <;> exact hp3
      · rw [if_pos hpe]
        intro _
        exact Or.inr (Or.inl ⟨rfl, hp' ▸ hpe, rfl⟩)

/-- At the end of the script the source goes on reporting the end. -/
theorem read_nil (len : Nat) (t : TextInput) :
    readWithStatus U len t [] = { readWithStatus U len t [eof] with src := [] } := by
  unfold readWithStatus
  split
  · rfl
  · cases drain U (len + 1) len t with
    | mk stop p =>
      obtain ⟨out, t'⟩ := p
      cases stop with
      | panic => rfl
      | full => rfl
      | empty =>
        simp only
        split
        · rfl
        · simp only [nextEvent, eof]
          split <;> rfl

theorem consumed_length {src es' rest : List Event} (h : Consumed src es' rest) (hn : es' = []) : rest = src := by
  cases h <;> simp_all

/-- Calls that do not report the end: each is paid for by an event of the source, by one more read at its end, or by a full buffer. -/
theorem calls_paid (hU : TextLaws U) {k0 : Ctl} (hk : CtlInv U k0 []) (L : Nat) (hL : normalizationBufferSize ≤ L) :
    ∀ (lens : List Nat) (_ : ∀ l ∈ lens, L ≤ l) (t : TextInput) (src : List Event) (emitted : List Char) (es : List Event) (u : Nat)
      (_ : Rel U k0 t emitted es) (_ : u = 0 → src = [] ∧ Settled (absorbAll U (k0, []) es))
      (_ : ∀ r ∈ readMany U lens t src, r.ret.atEnd = false),
      (L - 3) * lens.length ≤ (L - 3) * (src.length + u + pendBit t) + (encode (delivered (readMany U lens t src))).length := by
  intro lens
  induction lens with
  | nil => intros; simp
  | cons len lens ih =>
    intro hl t src emitted es u h hu hend
    have hlen : L ≤ len := hl _ (by simp)
    generalize hr : readWithStatus U len t src = r
    rw [readMany] at hend ⊢
    simp only [hr] at hend ⊢
    have hne : r.ret.atEnd = false := hend r (by simp)
    have hih := fun emitted es u a b => ih (fun l m => hl l (by simp [m])) r.input r.src emitted es u a b (fun r' m => hend r' (by simp [m]))
    obtain ⟨-, h2⟩ := read_rel hU h hr
    obtain ⟨es', c1, c2, -, c4, c5, -, c7⟩ := h2 (by omega)
    have hnp : r.ret ≠ .panic := by
      by_cases he : es' = [.err]
      · rw [c4 he]; simp
      · obtain ⟨st, h3, -⟩ := c5 he
        rw [h3]; simp
    have hctl := ctl_absorbAll hU es (k0, []) hk
    have hbytes : (encode (delivered (r :: readMany U lens r.input r.src))).length =
        (encode (if r.ret.isOk then r.out else [])).length + (encode (delivered (readMany U lens r.input r.src))).length := by
      simp [delivered, encode_append]
    rw [hbytes, List.length_cons]
    have hb : pendBit t ≤ 1 ∧ pendBit r.input ≤ 1 := by
      constructor <;> (unfold pendBit; split <;> omega)
    have hz : ∀ x : TextInput, x.pending = .active → pendBit x = 0 := fun x hx => by simp [pendBit, hx]
    have ho : ∀ x : TextInput, x.pending ≠ .active → pendBit x = 1 := fun x hx => by simp [pendBit, hx]
    have hL' : 1 ≤ L - 3 := by have : normalizationBufferSize = 136 := rfl; omega
    generalize hD : L - 3 = D at hL' hih ⊢
    generalize hB : (encode (delivered (readMany U lens r.input r.src))).length = B at hih ⊢
    have key : ∀ (a b c : Nat), D * lens.length ≤ D * a + B → a + 1 ≤ b + c → D * c ≤ (encode (if r.ret.isOk then r.out else [])).length →
        D * (lens.length + 1) ≤ D * b + ((encode (if r.ret.isOk then r.out else [])).length + B) := by
      intro a b c h1 h2 h3
      have := Nat.mul_le_mul_left D h2
      rw [Nat.mul_add, Nat.mul_add] at this
      rw [Nat.mul_add]
      omega
    have hfull : r.ret.isOk = true → len < (encode r.out).length + 4 → D * 1 ≤ (encode (if r.ret.isOk then r.out else [])).length := by
      intro h1 h2
      rw [if_pos h1]; omega
    cases src with
    | cons e src =>
      rcases read_kinds len t e src (by omega) hr hnp with ⟨a1, a2, a3, a4⟩ | ⟨a1, a2, a3⟩ | ⟨a1, a2, a3⟩
      · have hu0 : u ≠ 0 := fun h0 => by simpa using (hu h0).1
        refine key _ _ 1 (hih _ _ u c2 (fun h0 => absurd h0 hu0)) ?_ (hfull a2 a3)
        have : pendBit r.input = pendBit t := by simp [pendBit, a4]
        rw [a1]; omega
      · have hu0 : u ≠ 0 := fun h0 => by simpa using (hu h0).1
        refine key _ _ 0 (hih _ _ u c2 (fun h0 => absurd h0 hu0)) ?_ (by simp)
        rw [a1, ho t a2, hz _ a3]
        omega
      · have hu0 : u ≠ 0 := fun h0 => by simpa using (hu h0).1
        rcases a3 with a3 | ⟨a3, a4⟩
        · refine key _ _ 0 (hih _ _ u c2 (fun h0 => absurd h0 hu0)) ?_ (by simp)
          rw [a1, hz t a2, hz _ a3]
          simp only [List.length_cons]; omega
        · refine key _ _ 1 (hih _ _ u c2 (fun h0 => absurd h0 hu0)) ?_ (hfull a3 a4)
          rw [a1, hz t a2]
          simp only [List.length_cons]; omega
    | nil =>
      have hr' := hr
      rw [read_nil] at hr'
      generalize hq : readWithStatus U len t [eof] = q at hr'
      have hsrc : r.src = [] := by rw [← hr']
      have hret : q.ret = r.ret := by rw [← hr']
      have hin : q.input = r.input := by rw [← hr']
      have hout : q.out = r.out := by rw [← hr']
      have hset : ∀ u', (u' = 0 → r.src = [] ∧ Settled (absorbAll U (k0, []) es)) →
          u' = 0 → r.src = [] ∧ Settled (absorbAll U (k0, []) (es ++ es')) := by
        intro u' h0 h1
        refine ⟨hsrc, settled_eof hU hctl (h0 h1).2 ?_⟩
        rw [hsrc] at c1
        cases c1
        · exact Or.inl rfl
        · exact Or.inr rfl
      rcases read_kinds len t eof [] (by omega) hq (by rw [hret]; exact hnp) with ⟨a1, a2, a3, a4⟩ | ⟨a1, a2, a3⟩ | ⟨a1, a2, a3⟩
      · rw [hret] at a2
        rw [hout] at a3
        refine key _ _ 1 (hih _ _ u c2 (hset u (fun h0 => ⟨hsrc, (hu h0).2⟩))) ?_ (hfull a2 a3)
        rw [hin] at a4
        have : pendBit r.input = pendBit t := by simp [pendBit, a4]
        rw [hsrc]; omega
      · refine key _ _ 0 (hih _ _ u c2 (hset u (fun h0 => ⟨hsrc, (hu h0).2⟩))) ?_ (by simp)
        rw [hin] at a3
        rw [hsrc, ho t a2, hz _ a3]
        omega
      · -- the source has been read at its end
        obtain ⟨-, g2⟩ := read_rel hU h hq
        obtain ⟨es2, d1, d2, -, -, -, -, d7⟩ := g2 (by omega)
        have he2 : es2 = [eof] := by
          rw [a1] at d1
          cases d1
          rfl
        have hu0 : u ≠ 0 := by
          intro h0
          obtain ⟨n, h3⟩ := d7 he2 (hu h0).2
          rw [hret] at h3
          rw [h3] at hne
          simp [Ret.atEnd] at hne
        rw [hin, hout, he2] at d2
        have hs : r.src = [] ∧ Settled (absorbAll U (k0, []) (es ++ [eof])) :=
          ⟨hsrc, by rw [absorbAll_append]; exact absorb_settled hU hctl []⟩
        rcases a3 with a3 | ⟨a3, a4⟩
        · rw [hin] at a3
          refine key _ _ 0 (hih _ _ 0 d2 (fun _ => hs)) ?_ (by simp)
          rw [hsrc, hz t a2, hz _ a3]
          simp only [List.length_nil]; omega
        · rw [hret] at a3
          rw [hout] at a4
          refine key _ _ 1 (hih _ _ 0 d2 (fun _ => hs)) ?_ (hfull a3 a4)
          rw [hsrc, hz t a2]
          simp only [List.length_nil]; omega

end Verif
