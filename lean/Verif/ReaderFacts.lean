import Verif.ReaderExact
import Verif.TokenTheory

/-!
# Facts about whole runs, for the property theorems
-/

namespace Verif
open Ucd Spec
variable {U : Ucd}

/-- The client has read until the end was reported. -/
def Completes (U : Ucd) (nel lsps : Bool) (src : List Event) (lens : List Nat) : Prop :=
  ∃ r n, (readMany U lens (.new nel lsps) src).getLast? = some r ∧ r.ret = .ok n .end_

/-- Test whether the last result reports the end. -/
def endsRun (rs : List ReadResult) : Bool :=
  match rs.getLast? with
  | some r => match r.ret with
    | .ok _ .end_ => true
    | _ => false
  | none => false

theorem completes_of {nel lsps : Bool} {src : List Event} {lens : List Nat}
    (h : endsRun (readMany U lens (.new nel lsps) src) = true) : Completes U nel lsps src lens := by
  unfold endsRun at h
  split at h
  · rename_i r hr
    split at h
    · rename_i n hn; exact ⟨r, n, hr, hn⟩
    · simp at h
  · simp at h

/-- The text the client has received from a fresh reader. -/
def output (U : Ucd) (nel lsps : Bool) (src : List Event) (lens : List Nat) : List Char :=
  delivered (readMany U lens (.new nel lsps) src)

theorem run_valid (hU : TextLaws U) (nel lsps : Bool) (src : List Event) (lens : List Nat) :
    isBasicTextSubstr U (written (readMany U lens (.new nel lsps) src)) = true ∧
    ∀ c ∈ (written (readMany U lens (.new nel lsps) src)).head?, isStart U c = true := by
  obtain ⟨es', -, h2, -, -⟩ := run_rel hU lens (.new nel lsps) src [] [] (Rel.init nel lsps)
  have hc := ctl_absorbAll hU es' ((TextInput.new nel lsps).ctl, []) (ctl_new (U := U) nel lsps)
  have := h2.inv.valid hU (k := (absorbAll U ((TextInput.new nel lsps).ctl, []) es').1) (by simpa using hc)
  simpa using this

theorem run_delivered (hU : TextLaws U) (nel lsps : Bool) {src : List Event} (hs : ∀ e ∈ src, e ≠ .err) (lens : List Nat) :
    delivered (readMany U lens (.new nel lsps) src) = written (readMany U lens (.new nel lsps) src) := by
  obtain ⟨es', j1, j2, j3, j4⟩ := run_rel hU lens (.new nel lsps) src [] [] (Rel.init nel lsps)
  apply j3
  obtain ⟨m, hm, -⟩ := j1
  intro e he
  have : e ∈ src ++ List.replicate m eof := by rw [← hm]; simp [he]
  simp only [List.mem_append] at this
  rcases this with h | h
  · exact hs e h
  · rw [List.eq_of_mem_replicate h]; simp [eof]

/-- What has been written when the end is reported. -/
theorem run_end (hU : TextLaws U) {nel lsps : Bool} {src : List Event} {lens : List Nat} {r : ReadResult}
    (hr : (readMany U lens (.new nel lsps) src).getLast? = some r) {n : Nat} (hok : r.ret = .ok n .end_) :
    (written (readMany U lens (.new nel lsps) src) = [] ∨ (written (readMany U lens (.new nel lsps) src)).getLast? = some '\n') ∧
    r.input.queue = [] ∧ r.input.iter = [] ∧ r.input.quick = 0 := by
  obtain ⟨es, s, h1, h2, h3⟩ := run_last hU (Rel.init nel lsps) hr hok (by simp)
  have hT : (absorbAll U ((TextInput.new nel lsps).ctl, []) (es ++ [.data s .end_])).2 = [] ∨
      (absorbAll U ((TextInput.new nel lsps).ctl, []) (es ++ [.data s .end_])).2.getLast? = some '\n' := by
    rw [absorbAll_append]
    exact (absorb_settled hU (ctl_absorbAll hU es _ (ctl_new (U := U) nel lsps)) s).2
  obtain ⟨hq, segs, hs1, hs2, hs3⟩ := h2.inv.at_end h3 hT
  refine ⟨?_, hq, h3.iter, h3.quick⟩
  simp only [List.nil_append] at hs1 hs2
  rw [hs2]
  rcases hT with hT | hT
  · left
    rw [hs1] at hT
    cases segs with
    | nil => rfl
    | cons x segs =>
      rw [List.flatten_cons] at hT
      exact absurd (List.append_eq_nil_iff.1 hT).1 (hs3 x (by simp)).ne_nil
  · right
    rw [last_segs hU hs3, ← hs1]; exact hT

theorem text_of_end {s : List Char} (h1 : isBasicTextSubstr U s = true) (h2 : ∀ c ∈ s.head?, isStart U c = true)
    (h3 : s = [] ∨ s.getLast? = some '\n') : isBasicText U s = true := by
  refine text_iff.2 ⟨h2, ?_, h1⟩
  intro c hc
  rcases h3 with h | h
  · rw [h] at hc; simp at hc
  · rw [h] at hc; simp at hc; rw [← hc]; exact end_nl

/-- Complete runs over content for which the split does not matter. -/
theorem output_stream (hU : TextLaws U) {chunks : List (List Char)} {last : List Char} (hb : BomSafe chunks last) {nel lsps : Bool}
    (hn : Clear U nel lsps (chunks.flatten ++ last)) {lens : List Nat}
    (h : Completes U nel lsps (script chunks last) lens) :
    output U nel lsps (script chunks last) lens = stream U nel lsps (chunks.flatten ++ last) := by
  obtain ⟨r, n, hr, hok⟩ := h
  exact run_stream hU hb hn hr hok

theorem output_single (hU : TextLaws U) {s : List Char} {nel lsps : Bool} {lens : List Nat} (h : Completes U nel lsps (script [] s) lens) :
    output U nel lsps (script [] s) lens = normChain U (translate U nel lsps (dropBom s)) := by
  obtain ⟨r, n, hr, hok⟩ := h
  exact run_single hU hr hok

theorem bomSafe_of_no_bom {chunks : List (List Char)} {last : List Char} (h : (chunks.flatten ++ last).head? ≠ some BOM) :
    BomSafe chunks last := Or.inr h

/-- Valid text is its own stream conversion up to the final newline. -/
theorem stream_valid (hU : TextLaws U) {nel lsps : Bool} {s : List Char} (h : isBasicText U s = true)
    (ha : ∀ c ∈ s, isAssigned U c = true) : stream U nel lsps s = if s = [] ∨ s.getLast? = some '\n' then s else s ++ ['\n'] := by
  obtain ⟨-, -, h3⟩ := text_iff.1 h
  obtain ⟨h4, h5⟩ := substr_iff.1 h3
  have hn : NoCgjUn U (translate U nel lsps (dropBom s)) := by
    apply noCgjUn_translate hU
    rw [ok_dropBom h4]
    exact Or.inl ha
  unfold stream
  rw [← normalize_spec hU hn, ok_dropBom h4, translate_ok h]
  split
  · exact normChain_of_assigned hU h5 ha
  · have := normChain_split hU hU.law.inert_nl (b := '\n') (by simp [isAssigned, hU.assigned_ascii '\n' (by decide)]) (by decide) s []
    rw [this, normChain_of_assigned hU h5 ha]; rfl

/-! ## Pushes -/

/-- A source delivering `chunks`, then `last` with a push, then whatever. -/
def scriptPush (chunks : List (List Char)) (last : List Char) (rest : List Event) : List Event :=
  chunks.map (fun c => .data c .active) ++ .data last .push :: rest

theorem tokens_last_nl (fin : Char → Bool) (one : Char → Tok) : ∀ (n : Nat) (s : List Char), s.length ≤ n → ESC ∉ s →
    s.getLast? = some '\n' → (tokens fin one s).getLast? = some .nl := by
  have grow : ∀ (t : Tok) (ts : List Tok), ts.getLast? = some .nl → (t :: ts).getLast? = some .nl := by
    intro t ts h; simp [List.getLast?_cons, h]
  intro n
  induction n with
  | zero =>
    intro s hs _ h
    have : s = [] := List.length_eq_zero_iff.1 (by omega)
    subst this; simp at h
  | succ n ih =>
    intro s hs he hl
    cases s with
    | nil => simp at hl
    | cons c r =>
      simp only [List.length_cons] at hs
      have hr : ESC ∉ r := fun h => he (List.mem_cons_of_mem _ h)
      have hrl : r ≠ [] → r.getLast? = some '\n' := by
        intro hne
        rw [List.getLast?_cons] at hl
        cases hx : r.getLast? with
        | none => exact absurd (List.getLast?_eq_none_iff.1 hx) hne
        | some d => rw [hx] at hl; simpa using hl
      rw [tokens]
      by_cases h1 : c = '\n'
      · rw [if_pos h1]
        by_cases hne : r = []
        · subst hne; simp [tokens]
        · exact grow _ _ (ih r (by omega) hr (hrl hne))
      · rw [if_neg h1]
        have hne : r ≠ [] := by
          rintro rfl
          simp at hl; exact h1 hl
        by_cases h2 : c = '\r'
        · rw [if_pos h2]
          cases r with
          | nil => exact absurd rfl hne
          | cons d r =>
            unfold dropOne
            by_cases hd : d = '\n'
            · simp only [hd, decide_true, if_true]
              by_cases hr0 : r = []
              · subst hr0; simp [tokens]
              · refine grow _ _ (ih r (by simp at hs; omega) (fun h => hr (List.mem_cons_of_mem _ h)) ?_)
                have := hrl hne
                rw [List.getLast?_cons] at this
                cases hx : r.getLast? with
                | none => exact absurd (List.getLast?_eq_none_iff.1 hx) hr0
                | some e => rw [hx] at this; simpa using this
            · simp only [hd, decide_false, Bool.false_eq_true, if_false]
              exact grow _ _ (ih _ (by omega) hr (hrl hne))
        · rw [if_neg h2]
          by_cases h3 : c = FF
          · rw [if_pos h3]
            have hlen := dropWhile_le (· = FF) r
            have hs' : (r.dropWhile (· = FF)).getLast? = some '\n' := by
              have hx := List.takeWhile_append_dropWhile (p := fun x => decide (x = FF)) (l := r)
              by_cases hd : r.dropWhile (· = FF) = []
              · rw [hd, List.append_nil] at hx
                have hmem : '\n' ∈ r.takeWhile (· = FF) := by
                  rw [hx]; exact List.mem_of_getLast? (hrl hne)
                have := List.all_takeWhile (p := fun x => decide (x = FF)) (l := r)
                have := (List.all_eq_true.1 this) _ hmem
                exact absurd (of_decide_eq_true this) (by decide)
              · have h := hrl hne
                rw [← hx, List.getLast?_append] at h
                cases hy : (r.dropWhile (· = FF)).getLast? with
                | none => exact absurd (List.getLast?_eq_none_iff.1 hy) hd
                | some d => rw [hy] at h; simpa using h
            have hi := ih _ (by omega) (fun h => hr (mem_dropWhile h)) hs'
            simp only
            split
            · exact hi
            · exact grow _ _ hi
          · rw [if_neg h3, if_neg (fun h => he (by simp [h]))]
            exact grow _ _ (ih r (by omega) hr (hrl hne))

theorem absorb_push {kt : Ctl × List Char} {s : List Char} (h : (finishState (processRaw U kt.1 s).1).1.state = .ground true) :
    absorb U kt s .push = absorb U kt s .end_ := by
  unfold absorb finish
  generalize processRaw U kt.1 s = p at *
  simp [h]

theorem chunks_feed {chunks : List (List Char)} {last : List Char} (hb : BomSafe chunks last) (nel lsps : Bool) :
    (processRaw U (absorbAll U ((TextInput.new nel lsps).ctl, []) (chunks.map fun c => .data c .active)).1 last).1 =
      (feed U { (TextInput.new nel lsps).ctl with atStart := false } (dropBom (chunks.flatten ++ last))).1 := by
  let k1 : Ctl := { (TextInput.new nel lsps).ctl with atStart := false }
  have hfirst : ∀ s : List Char, processRaw U (TextInput.new nel lsps).ctl s = feed U k1 (dropBom s) := by
    intro s
    unfold processRaw dropBom dropOne
    congr 1
    cases s with
    | nil => rfl
    | cons c s => by_cases hc : c = BOM <;> simp [k1, TextInput.new, hc]
  cases chunks with
  | nil => simp only [List.map_nil, absorbAll, hfirst, List.flatten_nil, List.nil_append]; rfl
  | cons s chunks =>
    have hd : dropBom ((s :: chunks).flatten ++ last) = dropBom s ++ (chunks.flatten ++ last) := by
      unfold BomSafe at hb
      rw [List.flatten_cons, List.append_assoc]
      cases s with
      | nil =>
        simp only [List.cons_append, List.head?_cons, ne_eq, not_true_eq_false, false_or, List.flatten_cons, List.nil_append] at hb
        simp only [List.nil_append, dropBom, dropOne]
        cases hc : chunks.flatten ++ last with
        | nil => rfl
        | cons c r =>
          rw [hc] at hb
          simp at hb
          simp [hb]
      | cons c s =>
        by_cases hc : c = BOM <;> simp [dropBom, dropOne, hc]
    simp only [List.map_cons, absorbAll, absorb, hfirst, if_true]
    rw [absorbAll_active _ _ _ (by rw [feed_atStart]), processRaw_false (by rw [feed_atStart, feed_atStart]), hd, feed_append, feed_append]

theorem output_push (hU : TextLaws U) {chunks : List (List Char)} {last : List Char} {rest : List Event}
    (hrest : ∀ s, .data s .push ∉ rest) (hesc : ESC ∉ chunks.flatten ++ last)
    (hnl : (chunks.flatten ++ last).getLast? = some '\n') (hb : BomSafe chunks last)
    {nel lsps : Bool} (hn : Clear U nel lsps (chunks.flatten ++ last)) {lens : List Nat} {r : ReadResult} {n : Nat}
    (hr : (readMany U lens (.new nel lsps) (scriptPush chunks last rest)).getLast? = some r) (hok : r.ret = .ok n .push) :
    output U nel lsps (scriptPush chunks last rest) lens = stream U nel lsps (chunks.flatten ++ last) := by
  obtain ⟨es, s, h1, h2, h3⟩ := run_last hU (Rel.init nel lsps) hr hok (by simp)
  -- the inner reads are exactly those up to the push
  have hes : es ++ [.data s .push] = chunks.map (fun c => .data c .active) ++ [.data last .push] := by
    obtain ⟨m, hm, -⟩ := h1
    have hsplit : es ++ .data s .push :: (finalState (.new nel lsps) (scriptPush chunks last rest)
        (readMany U lens (.new nel lsps) (scriptPush chunks last rest))).2 =
        chunks.map (fun c => Event.data c .active) ++ .data last .push :: (rest ++ List.replicate m eof) := by
      simpa [scriptPush] using hm
    rw [List.append_eq_append_iff] at hsplit
    rcases hsplit with ⟨a, i1, i2⟩ | ⟨a, i1, i2⟩
    · cases a with
      | nil => simp at i1 i2; rw [i1, i2.1]
      | cons e a =>
        simp only [List.cons_append, List.cons.injEq] at i2
        have : Event.data s .push ∈ chunks.map (fun c => Event.data c .active) := by rw [i1, i2.1]; simp
        simp at this
    · cases a with
      | nil => simp at i1 i2; rw [i1, i2.1]
      | cons e a =>
        simp only [List.cons_append, List.cons.injEq] at i2
        have : Event.data s .push ∈ rest ++ List.replicate m eof := by rw [i2.2]; simp
        rcases List.mem_append.1 this with h | h
        · exact absurd h (hrest s)
        · exact absurd (List.eq_of_mem_replicate h) (by simp [eof])
  have hds : (dropBom (chunks.flatten ++ last)).getLast? = some '\n' := by
    generalize chunks.flatten ++ last = c at hnl
    cases c with
    | nil => simp at hnl
    | cons d c =>
      unfold dropBom dropOne
      by_cases hd : d = BOM
      · simp only [hd, decide_true, if_true]
        rw [List.getLast?_cons] at hnl
        cases hx : c.getLast? with
        | none => rw [hx, hd] at hnl; exact absurd hnl (by decide)
        | some e => rw [hx] at hnl; simpa using hnl
      · simpa [hd] using hnl
  have hstate : (finishState (processRaw U (absorbAll U ((TextInput.new nel lsps).ctl, [])
      (chunks.map fun c => .data c .active)).1 last).1).1.state = .ground true := by
    rw [chunks_feed hb]
    have := (full_tokens hU _ (dropBom (chunks.flatten ++ last)) { (TextInput.new nel lsps).ctl with atStart := false } true
      (Nat.le_refl _) rfl).2
    unfold full at this
    simp only at this
    rw [this]
    unfold nlAfter
    rw [tokens_last_nl _ _ _ (dropBom (chunks.flatten ++ last)) (Nat.le_refl _) (fun h => hesc (mem_dropOne h)) hds]
    rfl
  have hA : absorbAll U ((TextInput.new nel lsps).ctl, []) (es ++ [.data s .push]) =
      (endCtl nel lsps, translate U nel lsps (dropBom (chunks.flatten ++ last))) := by
    rw [hes, ← absorbAll_script hU hb, script, absorbAll_append, absorbAll_append]
    exact absorb_push hstate
  have hT := translate_last hU nel lsps (chunks.flatten ++ last)
  have hinv := h2.inv
  simp only [List.nil_append, hA] at hinv
  obtain ⟨hq, segs, s1, s2, s3⟩ := hinv.at_end h3 hT
  have hnc : NoCgjUn U (translate U nel lsps (dropBom (chunks.flatten ++ last))) := hn
  have hw : written (readMany U lens (.new nel lsps) (scriptPush chunks last rest)) = stream U nel lsps (chunks.flatten ++ last) := by
    rw [s2, stream, ← normalize_spec hU hnc]
    rw [s1] at hnc ⊢
    exact normChain_segs hU s3 hnc
  obtain ⟨es', j1, j2, j3, -⟩ := run_rel hU lens (.new nel lsps) (scriptPush chunks last rest) [] [] (Rel.init nel lsps)
  rw [output, j3 ?_, hw]
  have hok : ∀ e ∈ es ++ [.data s .push], e ≠ .err := by
    rw [hes]
    intro e he
    simp only [List.mem_append, List.mem_map, List.mem_singleton] at he
    rcases he with ⟨_, _, rfl⟩ | rfl <;> simp
  generalize (finalState (.new nel lsps) (scriptPush chunks last rest)
    (readMany U lens (.new nel lsps) (scriptPush chunks last rest))).2 = f at h1 j1
  obtain ⟨m, hm, hm0⟩ := h1
  obtain ⟨m', hm', hm0'⟩ := j1
  intro e he
  by_cases hf : f = []
  · subst hf
    simp only [List.append_nil] at hm hm'
    rw [hm'] at he
    rcases List.mem_append.1 he with he | he
    · exact hok e (by rw [hm]; simp [he])
    · rw [List.eq_of_mem_replicate he]; simp [eof]
  · have a : m = 0 := Decidable.byContradiction fun h => hf (hm0 h)
    have b : m' = 0 := Decidable.byContradiction fun h => hf (hm0' h)
    subst a b
    rw [← hm] at hm'
    exact hok e (by rw [← List.append_cancel_right hm']; exact he)

end Verif
