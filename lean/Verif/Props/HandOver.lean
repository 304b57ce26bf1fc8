import Verif.Equivalence
import Verif.HandOver
import Verif.Props.Duplexer
import Verif.Props.IntoInner
import Verif.Props.Prompt

/-!
# C121: taking the stream of a duplexer back
-/

namespace Verif
open Ucd Spec

/-- C121: neither call panics, not even where `abandon` does; `abandon_into_inner` always returns the stream, just as it is, and
`close_into_inner` does exactly if it would on a writer with the same output, and otherwise abandons it. -/
theorem c121_outcome (d : Duplexer) :
    d.takeAbandoned = { back := some (d.output.sink, d.src), lost := none, panics := false } ∧
    d.takeClosed = (if (takeClosed d.output).back.isSome then { back := some (d.output.sink, d.src), lost := none, panics := false }
      else { back := none, lost := some (d.output.sink.abandon, d.src), panics := false }) := by
  refine ⟨rfl, ?_⟩
  by_cases h : d.output.state = .ground .newline
  · rw [takeClosed_ok h]
    simp [Duplexer.takeClosed, checkNl, h, dropPanics]
  · rw [takeClosed_fail h]
    simp [Duplexer.takeClosed, checkNl, h, dropPanics, Writer.fail, Writer.reset]

/-- The text that reads delivered, as their results say. -/
def Spec.textRead (rs : List (Ret × List Char)) : List Char := rs.flatMap fun r => if r.1.isOk then r.2 else []

theorem textRead_map (rs : List ReadResult) : Spec.textRead (rs.map fun r => (r.ret, r.out)) = delivered rs := by
  induction rs with
  | nil => rfl
  | cons r rs ih =>
    have h1 : Spec.textRead ((r :: rs).map fun r => (r.ret, r.out)) = (if r.ret.isOk then r.out else []) ++ Spec.textRead (rs.map fun r => (r.ret, r.out)) := rfl
    have h2 : delivered (r :: rs) = (if r.ret.isOk then r.out else []) ++ delivered rs := rfl
    rw [h1, h2, ih]

/-- The last read of a duplexer, and what is then left to be read, are those of a reader. -/
theorem last_read {nel lsps : Bool} {src : List Event} {w : Writer} (hd : w.sink.dead = false) {ops : List DOp}
    (hw : ∀ o ∈ Verif.writes ops, o ≠ .close ∧ o ≠ .abandon) (hok : ∀ x ∈ writeOuts (dresults ucd15 (.make nel lsps src w) ops), x = .ok)
    {ret : Ret} {out : List Char} (hr : (readOuts (dresults ucd15 (.make nel lsps src w) ops)).getLast? = some (ret, out)) :
    Spec.textRead (readOuts (dresults ucd15 (.make nel lsps src w) ops)) = delivered (readMany ucd15 (Verif.reads ops) (.new nel lsps) src) ∧
    ∃ r, (readMany ucd15 (Verif.reads ops) (.new nel lsps) src).getLast? = some r ∧ r.ret = ret ∧ r.out = out ∧
      r.src = (drun ucd15 (.make nel lsps src w) ops).src := by
  obtain ⟨h1, h2⟩ := reads_alone textLaws15 ops (.make nel lsps src w) hd hw hok
  have h1 : readOuts (dresults ucd15 (.make nel lsps src w) ops) = (readMany ucd15 (Verif.reads ops) (.new nel lsps) src).map (fun r => (r.ret, r.out)) := h1
  have h2 : ((drun ucd15 (.make nel lsps src w) ops).input, (drun ucd15 (.make nel lsps src w) ops).src) =
      finalState (.new nel lsps) src (readMany ucd15 (Verif.reads ops) (.new nel lsps) src) := h2
  refine ⟨by rw [h1, textRead_map], ?_⟩
  rw [h1, List.getLast?_map] at hr
  cases hx : (readMany ucd15 (Verif.reads ops) (.new nel lsps) src).getLast? with
  | none => rw [hx] at hr; simp at hr
  | some r =>
    rw [hx] at hr
    simp at hr
    refine ⟨r, rfl, hr.1, hr.2, ?_⟩
    unfold finalState at h2
    rw [hx] at h2
    exact (congrArg Prod.snd h2).symm

theorem split_last {α : Type} {l : List α} (h : l ≠ []) : ∃ i x, l = i ++ [x] := by
  rcases List.eq_nil_or_concat l with h' | ⟨i, x, h'⟩
  · exact absurd h' h
  · exact ⟨i, x, by rw [h', List.concat_eq_append]⟩

theorem reads_ne_nil {nel lsps : Bool} {src : List Event} {lens : List Nat} {r : ReadResult}
    (h : (readMany ucd15 lens (.new nel lsps) src).getLast? = some r) : lens ≠ [] := by
  intro e
  rw [e] at h
  simp [readMany] at h

/-- C121 (what holds): if the last read did not fill its buffer, at most a part of the last line that came is lost when the stream is taken back:
what would have come out if the stream had ended here is what the reads delivered and then `x`, which has no newline except at its end.
Nothing is lost if what came ends with a newline and has no ESC. -/
theorem c121_lost_partial (nel lsps : Bool) (came rest : List Event) (hd : ∀ e ∈ came, ∃ s st, e = .data s st ∧ st ≠ .end_) (w : Writer)
    (hdead : w.sink.dead = false) (ops : List DOp) (hw : ∀ o ∈ Verif.writes ops, o ≠ .close ∧ o ≠ .abandon)
    (hok : ∀ x ∈ writeOuts (dresults ucd15 (.make nel lsps (came ++ rest) w) ops), x = .ok) (n : Nat) (st : Status) (out : List Char)
    (hr : (readOuts (dresults ucd15 (.make nel lsps (came ++ rest) w) ops)).getLast? = some (.ok n st, out))
    (len : Nat) (hlen : (Verif.reads ops).getLast? = some len) (hroom : n + 4 ≤ len)
    (hback : (drun ucd15 (.make nel lsps (came ++ rest) w) ops).takeAbandoned.back.map (·.2) = some rest) (hrest : ∀ e ∈ rest, e ≠ .err) (lens' : List Nat)
    (h' : Completes ucd15 nel lsps (came ++ [.data [] .end_]) lens') :
    ∃ x, output ucd15 nel lsps (came ++ [.data [] .end_]) lens' =
        Spec.textRead (readOuts (dresults ucd15 (.make nel lsps (came ++ rest) w) ops)) ++ x ∧
      '\n' ∉ x.dropLast ∧ (ESC ∉ Spec.content came → (Spec.content came).getLast? = some '\n' → x = []) := by
  obtain ⟨e1, r, e2, e3, -, e5⟩ := last_read hdead hw hok hr
  have hsrc : (drun ucd15 (.make nel lsps (came ++ rest) w) ops).src = rest := by
    rw [(c121_outcome _).1] at hback
    simpa using hback
  obtain ⟨lens, l, hl⟩ := split_last (reads_ne_nil e2)
  have : l = len := by rw [hl] at hlen; simpa using hlen
  subst this
  rw [e1, run_delivered textLaws15 nel lsps (by
    intro e he
    rcases List.mem_append.1 he with h | h
    · obtain ⟨s, st, rfl, -⟩ := hd e h; simp
    · exact hrest e h), hl]
  rw [hl] at e2
  exact c118_as_if_ended nel lsps came rest hd lens l r n st e2 (e5.trans hsrc) e3 hroom lens' h'

/-- C121, exactly: nothing is lost, while the stream goes on, if and only if what came ends at the end of a line. -/
theorem c121_nothing_lost_iff (nel lsps : Bool) (came rest : List Event) (hd : ∀ e ∈ came, ∃ s st, e = .data s st ∧ st ≠ .end_) (w : Writer)
    (hdead : w.sink.dead = false) (ops : List DOp) (hw : ∀ o ∈ Verif.writes ops, o ≠ .close ∧ o ≠ .abandon)
    (hok : ∀ x ∈ writeOuts (dresults ucd15 (.make nel lsps (came ++ rest) w) ops), x = .ok) (n : Nat) (st : Status) (out : List Char)
    (hr : (readOuts (dresults ucd15 (.make nel lsps (came ++ rest) w) ops)).getLast? = some (.ok n st, out))
    (len : Nat) (hlen : (Verif.reads ops).getLast? = some len) (hroom : n + 4 ≤ len)
    (hback : (drun ucd15 (.make nel lsps (came ++ rest) w) ops).takeAbandoned.back.map (·.2) = some rest) (hrest : ∀ e ∈ rest, e ≠ .err) (hne : rest ≠ []) (lens' : List Nat)
    (h' : Completes ucd15 nel lsps (came ++ [.data [] .end_]) lens') :
    Spec.textRead (readOuts (dresults ucd15 (.make nel lsps (came ++ rest) w) ops)) = output ucd15 nel lsps (came ++ [.data [] .end_]) lens' ↔
      Spec.AtLineEnd nel lsps came := by
  obtain ⟨e1, r, e2, e3, -, e5⟩ := last_read hdead hw hok hr
  have hsrc : (drun ucd15 (.make nel lsps (came ++ rest) w) ops).src = rest := by
    rw [(c121_outcome _).1] at hback
    simpa using hback
  obtain ⟨lens, l, hl⟩ := split_last (reads_ne_nil e2)
  have : l = len := by rw [hl] at hlen; simpa using hlen
  subst this
  rw [e1, run_delivered textLaws15 nel lsps (by
    intro e he
    rcases List.mem_append.1 he with h | h
    · obtain ⟨s, st, rfl, -⟩ := hd e h; simp
    · exact hrest e h), hl]
  rw [hl] at e2
  exact c118_exact nel lsps came rest hd lens l r n st e2 (e5.trans hsrc) hne e3 hroom lens' h'

/-- Spec: the text before it is guarded. -/
theorem dropBom_line (a b : List Char) : dropBom (a ++ '\n' :: b) = dropBom a ++ '\n' :: b := by
  cases a with
  | nil => exact dropBom_of_ne (by simp; decide)
  | cons c a =>
    by_cases h : c = BOM
    · subst h; rfl
    · rw [dropBom_of_ne (by simpa using h), dropBom_of_ne (by simpa using h)]

/-- Lines can be read by readers one after the other; only the start of the second is guarded. -/
theorem stream_behind (nel lsps : Bool) (a b : List Char) (ha : ESC ∉ a) (hb : b.head? ≠ some BOM) (hn : Clear ucd15 nel lsps (a ++ '\n' :: b)) :
    ∃ Y, stream ucd15 nel lsps (a ++ '\n' :: b) = stream ucd15 nel lsps (a ++ ['\n']) ++ Y ∧
      Clear ucd15 nel lsps (a ++ ['\n']) ∧ Clear ucd15 nel lsps b ∧ stream ucd15 nel lsps b = guardStart ucd15 Y := by
  have ha' : ESC ∉ dropBom a := fun h => ha (mem_dropOne h)
  obtain ⟨Z, z1, z2⟩ := translate_line textLaws15 nel lsps ha' b
  obtain ⟨W, w1, w2⟩ := translate_behind textLaws15 nel lsps b
  have hnl : isAssigned ucd15 '\n' = true := nl_assigned textLaws15
  have hn' : NoCgjUn ucd15 (Z ++ '\n' :: W) := by
    have : NoCgjUn ucd15 (translate ucd15 nel lsps (dropBom (a ++ '\n' :: b))) := hn
    rwa [dropBom_line, z1, w1] at this
  obtain ⟨n1, n2⟩ := (noCgjUn_cut hnl (by decide) Z W).1 hn'
  have f1 : NoCgjUn ucd15 (Z ++ ['\n']) := (noCgjUn_cut hnl (by decide) Z []).2 ⟨n1, by intro a c b h; simp at h⟩
  have f2 : NoCgjUn ucd15 (guardStart ucd15 W) := by
    rcases guardStart_cases ucd15 W with h | ⟨c, r, h1, h2, h⟩
    · rw [h]; exact n2
    · rw [h]
      intro p d q e
      cases p with
      | nil =>
        simp only [List.nil_append, List.cons.injEq, true_and] at e
        rw [h1] at e
        have hcd : c = d := (List.cons.inj e).1
        subst hcd
        cases hs : isAssigned ucd15 c with
        | true => rfl
        | false =>
          simp only [isAssigned, Bool.or_eq_false_iff] at hs
          rw [textLaws15.start_unassigned c hs.1] at h2
          simp at h2
      | cons x p =>
        exact n2 p d q (List.cons.inj e).2
  refine ⟨normChain ucd15 W, ?_, ?_, ?_, ?_⟩
  · unfold stream
    rw [dropBom_line, dropBom_line, z1, z2, w1, ← normalize_spec textLaws15 hn', ← normalize_spec textLaws15 f1]
    rw [normChain_split textLaws15 (inert_lf textLaws15) hnl (by decide), normChain_split textLaws15 (inert_lf textLaws15) hnl (by decide)]
    simp [normChain_nil]
  · have : NoCgjUn ucd15 (translate ucd15 nel lsps (dropBom (a ++ ['\n']))) := by rw [dropBom_line, z2]; exact f1
    exact this
  · have : NoCgjUn ucd15 (translate ucd15 nel lsps (dropBom b)) := by rw [dropBom_of_ne hb, w2]; exact f2
    exact this
  · unfold stream
    rw [dropBom_of_ne hb, w2, ← normalize_spec textLaws15 f2, normChain_guardStart textLaws15 startLaws15]

/-- C121 (what holds): a duplexer is read up to the end of a line, the stream is taken back, and a new duplexer reads the rest of it.  The two deliver
what one reader would have delivered; only, if the rest begins with a scalar that no text may start with, the new one puts a U+34F before it. -/
theorem c121_read_on_partial (nel lsps : Bool) (chunks : List (List Char)) (a : List Char) (ha : chunks.flatten = a ++ ['\n']) (he : ESC ∉ a)
    (more : List (List Char)) (last : List Char) (hbom : (more.flatten ++ last).head? ≠ some BOM) (hb : BomSafe chunks [])
    (hn : Clear ucd15 nel lsps (chunks.flatten ++ (more.flatten ++ last))) (w w' : Writer) (hdead : w.sink.dead = false) (hdead' : w'.sink.dead = false)
    (ops : List DOp) (hw : ∀ o ∈ Verif.writes ops, o ≠ .close ∧ o ≠ .abandon)
    (hok : ∀ x ∈ writeOuts (dresults ucd15 (.make nel lsps (script (chunks ++ more) last) w) ops), x = .ok) (n : Nat) (st : Status) (out : List Char)
    (hr : (readOuts (dresults ucd15 (.make nel lsps (script (chunks ++ more) last) w) ops)).getLast? = some (.ok n st, out))
    (len : Nat) (hlen : (Verif.reads ops).getLast? = some len) (hroom : n + 4 ≤ len) (rest : List Event)
    (hback : (drun ucd15 (.make nel lsps (script (chunks ++ more) last) w) ops).takeAbandoned.back.map (·.2) = some rest) (hrest : rest = script more last)
    (lens lens' : List Nat) (hc : Completes ucd15 nel lsps (script (chunks ++ more) last) lens) (hc' : Completes ucd15 nel lsps rest lens') :
    ∃ Y, output ucd15 nel lsps (script (chunks ++ more) last) lens =
        Spec.textRead (readOuts (dresults ucd15 (.make nel lsps (script (chunks ++ more) last) w) ops)) ++ Y ∧
      Spec.textRead (readOuts (dresults ucd15 (.make nel lsps rest w') (lens'.map .read))) = (if ∃ c ∈ Y.head?, isStart ucd15 c = false then CGJ :: Y else Y) := by
  subst hrest
  have hrew : script (chunks ++ more) last = chunks.map (fun c => .data c .active) ++ script more last := by simp [script]
  obtain ⟨e1, r, e2, e3, -, e5⟩ := last_read hdead hw hok hr
  have hsrc : (drun ucd15 (.make nel lsps (script (chunks ++ more) last) w) ops).src = script more last := by
    rw [(c121_outcome _).1] at hback
    simpa using hback
  obtain ⟨lens0, l, hl⟩ := split_last (reads_ne_nil e2)
  have : l = len := by rw [hl] at hlen; simpa using hlen
  subst this
  have hflat : (chunks ++ more).flatten ++ last = a ++ '\n' :: (more.flatten ++ last) := by
    rw [List.flatten_append, ha]; simp
  have hn1 : Clear ucd15 nel lsps (a ++ '\n' :: (more.flatten ++ last)) := by
    rw [ha, List.append_assoc, List.singleton_append] at hn; exact hn
  obtain ⟨Y, y1, y2, y3, y4⟩ := stream_behind nel lsps a (more.flatten ++ last) he hbom hn1
  have hne : ∀ e ∈ script (chunks ++ more) last, e ≠ .err := by
    intro e he
    unfold script at he
    rcases List.mem_append.1 he with h | h
    · obtain ⟨c, -, rfl⟩ := List.mem_map.1 h; simp
    · simp at h; subst h; simp
  have hbs : BomSafe (chunks ++ more) last := by
    have hch : chunks ≠ [] := by
      intro h; rw [h] at ha; simp at ha
    rcases hb with h | h
    · left
      cases chunks with
      | nil => exact absurd rfl hch
      | cons c cs => simpa using h
    · right
      rw [List.append_nil, ha] at h
      rw [hflat]
      cases a with
      | nil => simp; decide
      | cons c a => simpa using h
  have hout := output_stream textLaws15 hbs (nel := nel) (lsps := lsps) (by rw [hflat]; exact hn1) hc
  have hbs' : BomSafe more last := .inr hbom
  have hout' := output_stream textLaws15 hbs' y3 hc'
  rw [hl, hrew] at e2
  obtain ⟨x, x1, -, x3⟩ := c118_lines_stream nel lsps chunks (script more last) hb (by rw [ha]; exact y2) lens0 l r n st e2 (e5.trans hsrc) e3 hroom
  have hx : x = [] := x3 (by
    rw [ha]
    intro h
    rcases List.mem_append.1 h with h | h
    · exact he h
    · simp at h; exact absurd h (by decide)) (by rw [ha]; simp)
  subst hx
  refine ⟨Y, ?_, ?_⟩
  · rw [hout, hflat, y1, e1, run_delivered textLaws15 nel lsps hne, hl]
    rw [ha, List.append_nil] at x1
    rw [x1, hrew]
  · have h1 := (reads_alone textLaws15 (lens'.map .read) (.make nel lsps (script more last) w') hdead' (by
      intro o ho
      have : ∀ ls : List Nat, Verif.writes (ls.map DOp.read) = [] := by
        intro ls
        induction ls with
        | nil => rfl
        | cons m ls ih => exact ih
      rw [this] at ho; simp at ho) (by
      intro o ho
      have : ∀ (ls : List Nat) (d : Duplexer), writeOuts (dresults ucd15 d (ls.map .read)) = [] := by
        intro ls
        induction ls with
        | nil => intro d; rfl
        | cons m ls ih => intro d; exact ih _
      rw [this] at ho; simp at ho)).1
    have hreads : ∀ ls : List Nat, Verif.reads (ls.map DOp.read) = ls := by
      intro ls
      induction ls with
      | nil => rfl
      | cons m ls ih => exact congrArg (m :: ·) ih
    rw [hreads] at h1
    rw [h1, textRead_map]
    have : delivered (readMany ucd15 lens' (Duplexer.make nel lsps (script more last) w').input (Duplexer.make nel lsps (script more last) w').src) =
        output ucd15 nel lsps (script more last) lens' := rfl
    rw [this, hout', y4]
    unfold guardStart
    cases Y with
    | nil => simp
    | cons c Y => cases hs : isStart ucd15 c <;> simp [hs]

/-- A line is read, the stream is taken back, and a mark comes next: the new reader guards it. -/
example : let d : Duplexer := .make false false (script [['a', '\n'], ['́', 'b']] ['\n']) (.new goodSink)
    let e := drun ucd15 d [.read 136]
    readOuts (dresults ucd15 d [.read 136]) = [(.ok 2 .active, ['a', '\n'])] ∧
    e.takeAbandoned.back.map (·.2) = some (script [['́', 'b']] ['\n']) ∧
    output ucd15 false false (script [['a', '\n'], ['́', 'b']] ['\n']) [136, 136, 136] = ['a', '\n', '́', 'b', '\n'] ∧
    Spec.textRead (readOuts (dresults ucd15 (.make false false (script [['́', 'b']] ['\n']) (.new goodSink)) ([136, 136].map .read))) = [CGJ, '́', 'b', '\n'] := by
  decide +kernel

/-- C121 fails: text that the duplexer has read from the stream but not delivered is lost when the stream is taken back. `abandon` would panic
here; `abandon_into_inner` does not, and `close_into_inner` reports nothing. -/
theorem c121_refuted : let d : Duplexer := .make false false [.data ['a', '\n', 'b', 'c'] .active, .data ['d', '\n'] .end_] (.new goodSink)
    let e := drun ucd15 d [.read 136]
    readOuts (dresults ucd15 d [.read 136]) = [(.ok 2 .active, ['a', '\n'])] ∧
    e.takeClosed = { back := some (goodSink, [.data ['d', '\n'] .end_]), lost := none, panics := false } ∧
    e.takeAbandoned = { back := some (goodSink, [.data ['d', '\n'] .end_]), lost := none, panics := false } ∧ e.abandon = none := by
  decide +kernel

/-- The hypotheses of `c121_read_on_partial` for this stream, with writes in between. -/
example : let ops : List DOp := [.op (.str ['?']), .read 136, .op (.str ['!', '\n'])]
    let d : Duplexer := .make false false (script ([['a', '\n']] ++ [['́', 'b']]) ['\n']) (.new goodSink)
    BomSafe [['a', '\n']] [] ∧ ([['́', 'b']].flatten ++ ['\n']).head? ≠ some BOM ∧ Clear ucd15 false false (['a', '\n'] ++ (['́', 'b'] ++ ['\n'])) ∧
    (∀ o ∈ Verif.writes ops, o ≠ .close ∧ o ≠ .abandon) ∧ (∀ x ∈ writeOuts (dresults ucd15 d ops), x = .ok) ∧
    (readOuts (dresults ucd15 d ops)).getLast? = some (.ok 2 .active, ['a', '\n']) ∧ (drun ucd15 d ops).src = script [['́', 'b']] ['\n'] ∧
    Completes ucd15 false false (script [['́', 'b']] ['\n']) [136, 136] ∧
    (drun ucd15 d ops).takeClosed.back.map (·.1.sent) = some ['?', '!', '\n'] := by
  refine ⟨.inr (by decide), by decide, clear_of textLaws15 (.inr (by decide)), by decide +kernel, by decide +kernel, by decide +kernel, by decide +kernel,
    completes_of (by decide +kernel), by decide +kernel⟩

end Verif
