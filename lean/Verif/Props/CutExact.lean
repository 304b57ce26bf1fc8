import Verif.CutExact
import Verif.Props.CutIsolated
import Verif.Props.DocScalars
import Verif.Props.Escapes

/-! C04, C17, C65: when exactly, for a content that comes in several reads, the result is that of the conversion of the document. -/

namespace Verif
open Ucd Spec

theorem specGo_nl {U : Ucd} (hU : TextLaws U) (s : List Char) : ∀ need hv : Bool, specGo U need hv (s ++ ['\n']) = specGo U need hv s ++ ['\n'] := by
  have hn := nl_assigned hU
  induction s with
  | nil => intro need hv; cases need <;> simp [specGo, hn, show ('\n' : Char) ≠ CGJ by decide]
  | cons c s ih =>
    intro need hv
    simp only [List.cons_append, specGo]
    split <;> rw [ih] <;> rfl

theorem normalize_nl {U : Ucd} (hU : TextLaws U) (s : List Char) : normalize U (s ++ ['\n']) = normalize U s ++ ['\n'] := by
  have hN : ∀ s, normalize U s = norm3 U (specGo U false false s) := fun s => by rw [← spec_isolate_go hU]; rfl
  rw [hN, hN, specGo_nl hU, norm3_split hU (inert_lf hU), norm3_nil]

theorem normalize_if {U : Ucd} (hU : TextLaws U) (s : List Char) {p : Prop} [Decidable p] :
    normalize U (s ++ if p then ['\n'] else []) = normalize U s ++ if p then ['\n'] else [] := by
  split
  · exact normalize_nl hU s
  · simp

/-- C17, exactly: what a reader delivers is the stream conversion of the content if and only if the first read brings something or there is no
U+FEFF to be dropped, the text, as it is read, is `Balanced`, and no read but the last ends inside. -/
theorem c17_reader_is_stream_iff (nel lsps : Bool) (chunks : List (List Char)) (last : List Char) (lens : List Nat)
    (h : Completes ucd15 nel lsps (script chunks last) lens) :
    output ucd15 nel lsps (script chunks last) lens = stream ucd15 nel lsps (chunks.flatten ++ last) ↔
      BomSafe chunks last ∧ Balanced ucd15 (translate ucd15 nel lsps (dropBom (chunks.flatten ++ last))) ∧ ¬ ReadsInside ucd15 nel lsps chunks last := by
  constructor
  · intro he
    have hb : BomSafe chunks last := (c17_same_scalars_iff nel lsps chunks last lens h).1 (by rw [he])
    obtain ⟨h1, h2⟩ := (reads_whole_iff textLaws15 nel lsps hb h rfl).1 he
    exact ⟨hb, h1, inside_iff.1 h2⟩
  · rintro ⟨hb, h1, h2⟩
    exact (reads_whole_iff textLaws15 nel lsps hb h rfl).2 ⟨h1, inside_iff.2 h2⟩

/-- The same in terms of single places. -/
example : output ucd15 false false (script [['a', '͏']] ['͸', '͏', '\n']) [136, 136, 136] = ['a', '͏', '͏', '͸', '͏', '\n'] ∧
    stream ucd15 false false ['a', '͏', '͸', '͏', '\n'] = ['a', '͏', '͸', '͏', '\n'] ∧
    output ucd15 false false (script [['a']] ['͏', '͸', '͏', '\n']) [136, 136, 136] = ['a', '͏', '͸', '͏', '\n'] ∧
    Balanced ucd15 (translate ucd15 false false (dropBom ['a', '͏', '͸', '͏', '\n'])) := by decide +kernel

/-- C04, exactly: however the string is handed over, the result of the lossy conversion is that of the string conversion, with the newline that an
escape sequence has swallowed, if and only if the text, as it is read, is `Balanced` and no read but the last ends inside. -/
theorem c04_lossy_exact_iff (v : List Char) (chunks : List (List Char)) (last : List Char) (hv : chunks.flatten ++ last = v)
    (hb : SliceReads chunks last) (lens : Nat → Nat) (t : List Char) (h : Converts chunks last lens t) :
    t = Spec.string ucd15 v ++ (if Swallowed (dropBom v) then ['\n'] else []) ↔
      Balanced ucd15 (translate ucd15 false false (dropBom v)) ∧ ¬ ReadsInside ucd15 false false chunks last := by
  subst hv
  obtain ⟨l, x, c, rfl, e⟩ := lossy_output chunks last hb lens t h
  have hi := reads_whole_iff textLaws15 false false hb.bomSafe c rfl
  rw [inside_iff] at hi
  unfold ReadsInside
  rw [← hi, e, translate_lossyText, lossyText_swallow, string_eq, List.append_assoc,
    List.append_cancel_left_eq]
  have : ∀ z : List Char, normalize ucd15 (z ++ if Closed (dropBom (chunks.flatten ++ last)) then [] else ['\n']) =
      normalize ucd15 z ++ if Closed (dropBom (chunks.flatten ++ last)) then [] else ['\n'] := by
    intro z
    split
    · simp
    · exact normalize_nl textLaws15 z
  rw [this, List.append_cancel_right_eq, normalize_if textLaws15]

/-- C04, exactly: it is the string conversion if and only if also no escape sequence swallows the last newline. -/
theorem c04_lossy_is_string_iff (v : List Char) (chunks : List (List Char)) (last : List Char) (hv : chunks.flatten ++ last = v)
    (hb : SliceReads chunks last) (lens : Nat → Nat) (t : List Char) (h : Converts chunks last lens t) :
    t = Spec.string ucd15 v ↔
      ¬ Swallowed (dropBom v) ∧ Balanced ucd15 (translate ucd15 false false (dropBom v)) ∧ ¬ ReadsInside ucd15 false false chunks last := by
  have key := c04_lossy_exact_iff v chunks last hv hb lens t h
  have hsc := c04_scalars_exact v chunks last hv hb lens t h
  by_cases hw : Swallowed (dropBom v)
  · refine iff_of_false (fun he => ?_) fun g => g.1 hw
    rw [if_pos hw, he, List.filter_append] at hsc
    have := congrArg List.length hsc
    simp [show ('\n' : Char) ≠ CGJ by decide] at this
  · rw [if_neg hw, List.append_nil] at key
    rw [key]
    exact ⟨fun g => ⟨hw, g⟩, fun g => g.2⟩

end Verif
