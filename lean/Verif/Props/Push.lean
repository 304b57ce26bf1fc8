import Verif.Props.Prompt

/-!
# C26, exactly: which pushes are reported, and what has been delivered then
-/

namespace Verif
open Ucd Spec

variable {U : Ucd}

theorem drain_left : ∀ (fuel room : Nat) (t : TextInput) (stop : Stop) (out : List Char) (t' : TextInput),
    drain U fuel room t = (stop, out, t') → 4 ≤ room →
    (stop = .empty → (encode out).length + 4 ≤ room) ∧ (stop = .full → (encode out).length ≤ room ∧ room < (encode out).length + 4) := by
  intro fuel
  induction fuel with
  | zero => intro room t stop out t' h; simp [drain] at h; simp [← h.1]
  | succ fuel ih =>
    intro room t stop out t' h hr
    have hm : maxUtf8Size = 4 := rfl
    have hc : ∀ c : Char, (encode [c]).length = utf8Len c := fun c => by rw [encode_cons, List.length_append, encodeChar_length]; simp [encode]
    rw [drain] at h
    split at h
    · simp only [Prod.mk.injEq] at h
      obtain ⟨rfl, rfl, -⟩ := h
      exact ⟨fun _ => by simpa [encode] using hr, by simp⟩
    · rename_i c t1 _
      split at h
      · simp only [Prod.mk.injEq] at h
        obtain ⟨rfl, -⟩ := h
        simp
      · split at h
        · simp only [Prod.mk.injEq] at h
          obtain ⟨rfl, rfl, -⟩ := h
          refine ⟨by simp, fun _ => ?_⟩
          rw [hc]; omega
        · rename_i h1 h2
          cases hd : drain U fuel (room - utf8Len c) t1 with
          | mk s2 p2 =>
            obtain ⟨o2, t2⟩ := p2
            rw [hd] at h
            simp only [Prod.mk.injEq] at h
            obtain ⟨rfl, rfl, -⟩ := h
            obtain ⟨i1, i2⟩ := ih _ _ _ _ _ hd (by omega)
            rw [encode_cons, List.length_append, encodeChar_length]
            exact ⟨fun e => by have := i1 e; omega, fun e => by have := i2 e; omega⟩

/-- C26, exactly: the read that takes in what the source gives reports the source's status if it leaves room for a scalar in its
buffer, and otherwise that the stream is active; so a push is reported by that read exactly if it leaves room. -/
theorem c26_reported_iff (t : TextInput) (s : List Char) (status : Status) (rest : List Event) (len n : Nat) (st : Status)
    (htaken : (readWithStatus ucd15 len t (.data s status :: rest)).src = rest)
    (hok : (readWithStatus ucd15 len t (.data s status :: rest)).ret = .ok n st) :
    st = if n + 4 ≤ len then status else .active := by
  have hne : (Event.data s status :: rest) ≠ rest := fun h => by have := congrArg List.length h; simp at this
  have hN : normalizationBufferSize = 136 := rfl
  unfold readWithStatus at htaken hok
  split at hok
  · simp at hok
  rename_i hl
  rw [if_neg hl] at htaken
  cases hd : drain ucd15 (len + 1) len t with
  | mk stop p =>
    obtain ⟨out, t1⟩ := p
    rw [hd] at htaken hok
    cases stop with
    | panic => simp at hok
    | full => exact absurd htaken hne
    | empty =>
      dsimp only at htaken hok
      have hroom := (drain_left _ _ _ _ _ _ hd (by omega)).1 rfl
      split at hok
      · rename_i hp
        rw [if_pos hp] at htaken
        exact absurd htaken hne
      · simp only [nextEvent] at hok
        generalize (if status ≠ Status.active then _ else _ : TextInput) = t2 at hok
        cases hd2 : drain ucd15 (len + 1) (len - (encode out).length) t2 with
        | mk stop2 p2 =>
          obtain ⟨out2, t3⟩ := p2
          rw [hd2] at hok
          obtain ⟨i1, i2⟩ := drain_left _ _ _ _ _ _ hd2 (by omega)
          cases stop2 with
          | panic => simp at hok
          | empty =>
            simp only [Ret.ok.injEq, encode_append, List.length_append] at hok
            have := i1 rfl
            rw [if_pos (by omega)]
            exact hok.2.symm
          | full =>
            simp only [Ret.ok.injEq, encode_append, List.length_append] at hok
            have := i2 rfl
            rw [if_neg (by omega)]
            exact hok.2.symm

/-- C26: a read that takes in nothing reports that the stream is active, so a push that was not reported when it was taken in is
never reported. -/
theorem c26_never_later (t : TextInput) (src : List Event) (len n : Nat) (st : Status) (hne : src ≠ [])
    (htaken : (readWithStatus ucd15 len t src).src = src) (hok : (readWithStatus ucd15 len t src).ret = .ok n st) : st = .active := by
  unfold readWithStatus at htaken hok
  split at hok
  · simp at hok
  rename_i hl
  rw [if_neg hl] at htaken
  cases hd : drain ucd15 (len + 1) len t with
  | mk stop p =>
    obtain ⟨out, t1⟩ := p
    rw [hd] at htaken hok
    cases stop with
    | panic => simp at hok
    | full => simp at hok; exact hok.2.symm
    | empty =>
      dsimp only at htaken hok
      split at hok
      · simp at hok; exact hok.2.symm
      · rename_i hp
        rw [if_neg hp] at htaken
        exfalso
        cases src with
        | nil => exact hne rfl
        | cons e rest =>
          have hlen : rest ≠ e :: rest := fun h => by have := congrArg List.length h; simp at this
          cases e with
          | err => exact hlen htaken
          | data s status =>
            simp only [nextEvent] at htaken
            generalize (if status ≠ Status.active then _ else _ : TextInput) = t2 at htaken
            cases hd2 : drain ucd15 (len + 1) (len - (encode out).length) t2 with
            | mk stop2 p2 =>
              obtain ⟨out2, t3⟩ := p2
              rw [hd2] at htaken
              cases stop2 <;> exact hlen htaken

/-- C26: when a push is reported, all that would be delivered if the source ended there has been delivered, but at most the last line;
and all of it if what has come is complete lines without escapes.  There may be any number of pushes before. -/
theorem c26_as_if_ended (nel lsps : Bool) (came rest : List Event) (hd : ∀ e ∈ came, ∃ s st, e = .data s st ∧ st ≠ .end_) (lens : List Nat)
    (r : ReadResult) (n : Nat) (hr : (readMany ucd15 lens (.new nel lsps) (came ++ rest)).getLast? = some r)
    (hrest : r.src = rest) (hok : r.ret = .ok n .push) (lens' : List Nat) (h' : Completes ucd15 nel lsps (came ++ [.data [] .end_]) lens') :
    ∃ x, output ucd15 nel lsps (came ++ [.data [] .end_]) lens' = written (readMany ucd15 lens (.new nel lsps) (came ++ rest)) ++ x ∧
      '\n' ∉ x.dropLast ∧ (ESC ∉ Spec.content came → (Spec.content came).getLast? = some '\n' → x = []) := by
  subst hrest
  obtain ⟨r', n', hr', hok'⟩ := h'
  obtain ⟨-, -, -, -, hidle⟩ := run_last textLaws15 (Rel.init nel lsps) hr hok (by simp)
  obtain ⟨x, h1, h2, h3, -⟩ := at_idle textLaws15 hr hidle rfl hd
  refine ⟨x, ?_, h2, h3⟩
  rw [output, (run_exact textLaws15 ⟨came, [], rfl, hd⟩ hr' hok').1]
  exact h1

/-- C26: exactly when all of it has been delivered, while the source goes on: if what has come ends at the end of a line. -/
theorem c26_exact (nel lsps : Bool) (came rest : List Event) (hd : ∀ e ∈ came, ∃ s st, e = .data s st ∧ st ≠ .end_) (lens : List Nat)
    (r : ReadResult) (n : Nat) (hr : (readMany ucd15 lens (.new nel lsps) (came ++ rest)).getLast? = some r)
    (hrest : r.src = rest) (hne : rest ≠ []) (hok : r.ret = .ok n .push) (lens' : List Nat)
    (h' : Completes ucd15 nel lsps (came ++ [.data [] .end_]) lens') :
    written (readMany ucd15 lens (.new nel lsps) (came ++ rest)) = output ucd15 nel lsps (came ++ [.data [] .end_]) lens' ↔
      Spec.AtLineEnd nel lsps came := by
  subst hrest
  obtain ⟨r', n', hr', hok'⟩ := h'
  obtain ⟨-, -, -, -, hidle⟩ := run_last textLaws15 (Rel.init nel lsps) hr hok (by simp)
  obtain ⟨x, h1, -, -, h2⟩ := at_idle textLaws15 hr hidle rfl hd
  have h1 : (segments ucd15 nel lsps (came ++ [.data [] .end_])).flatMap (normChain ucd15) = _ := h1
  rw [← h2 hne, output, (run_exact textLaws15 ⟨came, [], rfl, hd⟩ hr' hok').1, h1]
  simp

/-- A push that is reported, with part of a line before it, and one that is not. -/
example : (readWithStatus ucd15 136 (.new false false) [.data ['a', '\n', 'b'] .push, .data ['c'] .end_]).src = [.data ['c'] .end_] ∧
    (readWithStatus ucd15 136 (.new false false) [.data ['a', '\n', 'b'] .push, .data ['c'] .end_]).ret = .ok 2 .push ∧
    (readWithStatus ucd15 136 (.new false false) [.data (List.replicate 133 'a' ++ ['\n']) .push]).ret = .ok 133 .active := by decide +kernel

example : (readMany ucd15 [136] (.new false false) ([.data ['a', '\n', 'b'] .push] ++ [.data ['c'] .end_])).map (·.ret) = [.ok 2 .push] ∧
    Completes ucd15 false false ([.data ['a', '\n', 'b'] .push] ++ [.data [] .end_]) [136, 136] :=
  ⟨by decide +kernel, completes_of (by decide +kernel)⟩

/-- C26 (what holds): if every push comes at the end of a line, what the read after a reported push delivers begins with a scalar
allowed at the start. -/
theorem c26_next_start_partial (nel lsps : Bool) (src : List Event) (hsrc : Ending src) (hesc : ESC ∉ Spec.content src) (hp : Spec.PushesAtLines src)
    (lens : List Nat) (r : ReadResult) (m : Nat) (hr : (readMany ucd15 lens (.new nel lsps) src).getLast? = some r) (hret : r.ret = .ok m .push)
    (len : Nat) : ∀ c ∈ (readWithStatus ucd15 len r.input r.src).out.head?, isStart ucd15 c = true :=
  push_next textLaws15 hsrc hesc hp hr hret len

example : (readMany ucd15 [136, 136] (.new false false) [.data ['a', '\n'] .push, .data ['́', '\n'] .end_]).map (fun r => (r.ret, r.out)) =
    [(.ok 2 .push, ['a', '\n']), (.ok 5 .end_, ['͏', '́', '\n'])] := by decide +kernel

end Verif
