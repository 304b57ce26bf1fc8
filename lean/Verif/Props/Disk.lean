import Verif.Disk
import Verif.Props.CutShort
import Verif.Props.Early
import Verif.Props.Writer

/-!
# A disk that fills up (C143)
-/

namespace Verif
open Ucd Spec

theorem disk_full_run {cap : Nat} {ops : List Op} : ∀ {g : Writer} {x : OnDisk}, DiskFull cap g x → (∀ op ∈ ops, op.Ok ucd15) →
    DiskFull cap (run ucd15 g ops) (x.run ucd15 ops) ∧ (x.results ucd15 ops).length = ops.length ∧
      ∀ p ∈ ops.zip (x.results ucd15 ops), p.1 ≠ .abandon → p.2 = .err := by
  induction ops with
  | nil => intro g x h _; exact ⟨h, rfl, by simp⟩
  | cons op ops ih =>
    intro g x h ho
    obtain ⟨h1, h2⟩ := h.step textLaws15 (ho op (by simp))
    obtain ⟨i1, i2, i3⟩ := ih h1 fun o h => ho o (by simp [h])
    refine ⟨i1, by simp [OnDisk.results, i2], ?_⟩
    intro p hp
    simp only [OnDisk.results, List.zip_cons_cons, List.mem_cons] at hp
    rcases hp with rfl | hp
    · exact h2
    · exact i3 p hp

/-- As long as there is room the calls do what they do on an unlimited stream; the first one that does not find room fails. -/
theorem disk_run {cap : Nat} {ops : List Op} : ∀ {g : Writer} {x : OnDisk}, DiskLive cap g x → (∀ op ∈ ops, op.Ok ucd15) →
    (DiskLive cap (run ucd15 g ops) (x.run ucd15 ops) ∧ x.results ucd15 ops = results ucd15 g ops) ∨
    ∃ a op b rs, ops = a ++ op :: b ∧ op.isWrite = true ∧ DiskLive cap (run ucd15 g a) (x.run ucd15 a) ∧
      DiskFull cap (run ucd15 g (a ++ [op])) (x.run ucd15 (a ++ [op])) ∧ DiskFull cap (run ucd15 g ops) (x.run ucd15 ops) ∧
      x.results ucd15 ops = results ucd15 g a ++ .err :: rs ∧ rs.length = b.length ∧ ∀ p ∈ b.zip rs, p.1 ≠ .abandon → p.2 = .err := by
  induction ops with
  | nil => intro g x h _; exact .inl ⟨h, rfl⟩
  | cons op ops ih =>
    intro g x h ho
    rcases h.step textLaws15 (ho op (by simp)) with ⟨h1, h2⟩ | ⟨h1, h2, h3, -⟩
    · rcases ih h1 fun o h => ho o (by simp [h]) with ⟨i1, i2⟩ | ⟨a, o, b, rs, rfl, i1, i2, i3, i4, i5, i6⟩
      · exact .inl ⟨i1, by simp [OnDisk.results, results, h2, i2]⟩
      · exact .inr ⟨op :: a, o, b, rs, rfl, i1, i2, i3, i4, by simp [OnDisk.results, results, h2, i5], i6⟩
    · obtain ⟨i1, i2, i3⟩ := disk_full_run (ops := ops) h1 fun o h => ho o (by simp [h])
      exact .inr ⟨[], op, ops, _, rfl, h2, h, h1, i1, by simp [OnDisk.results, results, h3], i2, i3⟩

theorem disk_start {w : Writer} (hs : w.sink.script = []) (n : Nat) : DiskLive ((encode w.sink.sent).length + n) w (.start w n) :=
  ⟨hs, rfl, rfl, rfl⟩

/-- C143: what is on the disk is the first bytes of what would be on it if there were room for all of it, as many as there is room for.
`w` may be any writer (in any mode, in the middle of its work), the calls any calls, whatever their results. -/
theorem c143_bytes (w : Writer) (hs : w.sink.script = []) (ops : List Op) (ho : ∀ op ∈ ops, op.Ok ucd15) (n : Nat) :
    ((OnDisk.start w n).run ucd15 ops).bytes = (encode (run ucd15 w ops).sink.sent).take ((encode w.sink.sent).length + n) := by
  rcases disk_run (disk_start hs n) ho with ⟨h, -⟩ | ⟨a, op, b, rs, -, -, -, -, h, -⟩
  · rw [h.bytes, List.take_of_length_le]
    have := h.room
    rw [h.bytes] at this
    omega
  · exact h.bytes

/-- C143: with room for everything the results are those on an unlimited stream. -/
theorem c143_room (w : Writer) (hs : w.sink.script = []) (ops : List Op) (ho : ∀ op ∈ ops, op.Ok ucd15) (n : Nat)
    (hn : (encode (run ucd15 w ops).sink.sent).length ≤ (encode w.sink.sent).length + n) :
    (OnDisk.start w n).results ucd15 ops = results ucd15 w ops ∧ ((OnDisk.start w n).run ucd15 ops).bytes = encode (run ucd15 w ops).sink.sent := by
  rcases disk_run (disk_start hs n) ho with ⟨h, h'⟩ | ⟨a, op, b, rs, -, -, -, -, h, -⟩
  · exact ⟨h', h.bytes⟩
  · have := h.over; omega

/-- C143: without, the calls do the same up to the one of which the text does not fit, which fails; so does every call after it, and they
write nothing. -/
theorem c143_full (w : Writer) (hs : w.sink.script = []) (ops : List Op) (ho : ∀ op ∈ ops, op.Ok ucd15) (n : Nat)
    (hn : (encode w.sink.sent).length + n < (encode (run ucd15 w ops).sink.sent).length) :
    ∃ a op b rs, ops = a ++ op :: b ∧ op.isWrite = true ∧ (OnDisk.start w n).results ucd15 ops = results ucd15 w a ++ .err :: rs ∧
      rs.length = b.length ∧ (∀ p ∈ b.zip rs, p.1 ≠ .abandon → p.2 = .err) ∧
      (encode (run ucd15 w a).sink.sent).length ≤ (encode w.sink.sent).length + n ∧
      (encode w.sink.sent).length + n < (encode (run ucd15 w (a ++ [op])).sink.sent).length ∧
      ((OnDisk.start w n).run ucd15 (a ++ [op])).bytes = ((OnDisk.start w n).run ucd15 ops).bytes := by
  rcases disk_run (disk_start hs n) ho with ⟨h, -⟩ | ⟨a, op, b, rs, h1, h2, h3, h4, h5, h6, h7, h8⟩
  · have := h.room
    rw [h.bytes] at this
    omega
  · refine ⟨a, op, b, rs, h1, h2, h6, h7, h8, ?_, h4.over, ?_⟩
    · have := h3.room
      rw [h3.bytes] at this
      omega
    · obtain ⟨y, hy⟩ : ∃ y, (run ucd15 w ops).sink.sent = (run ucd15 w (a ++ [op])).sink.sent ++ y := by
        have : ops = (a ++ [op]) ++ b := by simp [h1]
        rw [this, run_append]
        exact run_delta textLaws15 (ops := b) fun o h => ho o (by simp [h1, h])
      rw [h4.bytes, h5.bytes, hy, encode_app, List.take_append_of_le_length (Nat.le_of_lt h4.over)]

/-- C143: all that calls have written which succeeded is on the disk and stays there. -/
theorem c143_kept (w : Writer) (hs : w.sink.script = []) (a b : List Op) (ho : ∀ op ∈ a ++ b, op.Ok ucd15) (n : Nat)
    (hr : ∀ r ∈ (OnDisk.start w n).results ucd15 a, r = .ok) :
    encode (run ucd15 w a).sink.sent <+: ((OnDisk.start w n).run ucd15 (a ++ b)).bytes := by
  obtain ⟨y, hy⟩ : ∃ y, (run ucd15 w (a ++ b)).sink.sent = (run ucd15 w a).sink.sent ++ y := by
    rw [run_append]
    exact run_delta textLaws15 (ops := b) fun o h => ho o (by simp [h])
  rw [c143_bytes w hs _ ho, hy, encode_app]
  rcases disk_run (ops := a) (disk_start hs n) (fun o h => ho o (by simp [h])) with ⟨h, -⟩ | ⟨a', op, b', rs, -, -, -, -, -, h, -⟩
  · have := h.room
    rw [h.bytes] at this
    rw [List.take_append, List.take_of_length_le (by omega)]
    exact List.prefix_append _ _
  · exact absurd (hr .err (by rw [h]; simp)) (by simp)

/-- C143: the disk ends with at most a part of one scalar, the next one of the text. -/
theorem c143_scalars (w : Writer) (hs : w.sink.script = []) (ops : List Op) (ho : ∀ op ∈ ops, op.Ok ucd15) (n : Nat) :
    ∃ u t κ, (run ucd15 w ops).sink.sent = u ++ t ∧ ((OnDisk.start w n).run ucd15 ops).bytes = encode u ++ κ ∧ Begins κ t := by
  obtain ⟨u, t, κ, h1, h2, h3, -⟩ := cut_bytes (List.take_append_drop ((encode w.sink.sent).length + n) (encode (run ucd15 w ops).sink.sent)).symm
  exact ⟨u, t, κ, h1, by rw [c143_bytes w hs ops ho, h2], h3⟩

/-- C143: a reader of the disk delivers the complete lines that it would deliver of all that was to be written, and at most one further
line.  For every writer and every text, also one that is not Basic Text as a whole. -/
theorem c143_read (w : Writer) (hs : w.sink.script = []) (ops : List Op) (ho : ∀ op ∈ ops, op.Ok ucd15) (n : Nat) (nel lsps : Bool)
    (lens lens' : List Nat) (h : Completes ucd15 nel lsps (byteScript [] ((OnDisk.start w n).run ucd15 ops).bytes) lens)
    (h' : Completes ucd15 nel lsps (byteScript [] (encode (run ucd15 w ops).sink.sent)) lens') :
    ∃ c t t', output ucd15 nel lsps (byteScript [] ((OnDisk.start w n).run ucd15 ops).bytes) lens = c ++ t ∧
      output ucd15 nel lsps (byteScript [] (encode (run ucd15 w ops).sink.sent)) lens' = c ++ t' ∧
      '\n' ∉ t.dropLast ∧ (c = [] ∨ c.getLast? = some '\n') := by
  rw [c143_bytes w hs ops ho] at h ⊢
  have e := List.take_append_drop ((encode w.sink.sent).length + n) (encode (run ucd15 w ops).sink.sent)
  have := c136_bytes nel lsps [] _ ((encode (run ucd15 w ops).sink.sent).drop ((encode w.sink.sent).length + n)) lens lens' h (by rw [e]; exact h')
  rwa [e] at this

/-- C143: if what was to be written is Basic Text without unassigned scalars, a reader of the disk, whatever the pieces in which the bytes
come, delivers the complete lines on it as they were written, and at most one further line; among them all lines that were completed by
calls that succeeded. -/
theorem c143_lines (w : Writer) (hs : w.sink.script = []) (a b : List Op) (ho : ∀ op ∈ a ++ b, op.Ok ucd15) (n : Nat)
    (hv : isBasicText ucd15 (run ucd15 w (a ++ b)).sink.sent = true) (hu : ∀ c ∈ (run ucd15 w (a ++ b)).sink.sent, isAssigned ucd15 c = true)
    (hr : ∀ r ∈ (OnDisk.start w n).results ucd15 a, r = .ok) (ha : (run ucd15 w a).sink.sent = [] ∨ (run ucd15 w a).sink.sent.getLast? = some '\n')
    (nel lsps : Bool) (bs : List Bytes) (last : Bytes) (hb : bs.flatten ++ last = ((OnDisk.start w n).run ucd15 (a ++ b)).bytes) (lens : List Nat)
    (h : Completes ucd15 nel lsps (byteScript bs last) lens) :
    ∃ v rest r, v <+: (run ucd15 w (a ++ b)).sink.sent ∧ (v = [] ∨ v.getLast? = some '\n') ∧ bs.flatten ++ last = encode v ++ rest ∧ 10 ∉ rest ∧
      output ucd15 nel lsps (byteScript bs last) lens = v ++ r ∧ '\n' ∉ r.dropLast ∧ (r = [] ↔ rest = []) ∧
      (run ucd15 w a).sink.sent <+: v := by
  have hc := c143_kept w hs a b ho n hr
  rw [← hb] at hc
  have hT : encode (run ucd15 w (a ++ b)).sink.sent = (bs.flatten ++ last) ++ (encode (run ucd15 w (a ++ b)).sink.sent).drop ((encode w.sink.sent).length + n) := by
    rw [hb, c143_bytes w hs _ ho, List.take_append_drop]
  obtain ⟨v, rest, r, h1, h2, h3, h4, h5, h6, h7⟩ := c138_lines nel lsps _ hv hu bs last _ hT lens h
  refine ⟨v, rest, r, h1, h2, h3, h4, h5, h6, h7, ?_⟩
  obtain ⟨y, hy⟩ : ∃ y, (run ucd15 w (a ++ b)).sink.sent = (run ucd15 w a).sink.sent ++ y := by
    rw [run_append]
    exact run_delta textLaws15 (ops := b) fun o h => ho o (by simp [h])
  rcases ha with ha | ha
  · rw [ha]; exact List.nil_prefix
  · rcases List.prefix_or_prefix_of_prefix (List.prefix_append _ y) (hy ▸ h1) with hp | ⟨z, hz⟩
    · exact hp
    · obtain ⟨s, hs'⟩ := hc
      rw [h3, ← hz, encode_app, List.append_assoc, List.append_cancel_left_eq] at hs'
      rcases List.eq_nil_or_concat z with rfl | ⟨z', c, rfl⟩
      · rw [← hz]; simp
      · exfalso
        rw [← hz, List.concat_eq_append] at ha
        simp at ha
        subst ha
        apply h4
        rw [← hs', List.concat_eq_append, encode_app]
        simp [encode, encodeChar]

/-- The disk gets full in the middle of `é`: the first line is on it, and is what a reader delivers unchanged. -/
example : (OnDisk.start (.new goodSink) 4).results ucd15 [.str ['a', '\n'], .flush, .str ['b', 'é', '\n', 'c', '\n'], .str ['d', '\n'], .close] =
      [.ok, .ok, .err, .err, .err] ∧
    ((OnDisk.start (.new goodSink) 4).run ucd15 [.str ['a', '\n'], .flush, .str ['b', 'é', '\n', 'c', '\n'], .str ['d', '\n'], .close]).bytes =
      [0x61, 0x0a, 0x62, 0xc3] ∧
    isBasicText ucd15 (run ucd15 (.new goodSink) [.str ['a', '\n'], .flush, .str ['b', 'é', '\n', 'c', '\n'], .str ['d', '\n'], .close]).sink.sent = true ∧
    (∀ c ∈ (run ucd15 (.new goodSink) [.str ['a', '\n'], .flush, .str ['b', 'é', '\n', 'c', '\n'], .str ['d', '\n'], .close]).sink.sent,
      isAssigned ucd15 c = true) ∧
    output ucd15 false false (byteScript [] [0x61, 0x0a, 0x62, 0xc3]) [136, 136] = ['a', '\n', 'b', '�', '\n'] ∧
    Completes ucd15 false false (byteScript [] [0x61, 0x0a, 0x62, 0xc3]) [136] := by
  refine ⟨by decide +kernel, by decide +kernel, by decide +kernel, by decide +kernel, by decide +kernel, completes_of (by decide +kernel)⟩

/-- In CRLF mode a disk may end between U+D and U+A. -/
example : ((OnDisk.start (.newCrlf goodSink) 2).run ucd15 [.str ['a', '\n', 'b', '\n'], .close]).bytes = [0x61, 0x0d] ∧
    output ucd15 false false (byteScript [] [0x61, 0x0d]) [136, 136] = ['a', '\n'] := by decide +kernel

end Verif
