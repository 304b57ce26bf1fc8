import Verif.RepoTests.Runs

/-! `tests/samples.rs`.  See `Verif.RepoTests.Runs`. -/

namespace Verif.RepoTests
open Verif.Tables

set_option maxRecDepth 1000000 in
/-- `basic_text_example` (`tests/samples.rs:6-13`) -/
theorem sample_example : fromTextBytes (isBasicText ucd15) (bytes sampleExample) = .ok (utf8Lossy (bytes sampleExample)) := by
  decide +kernel

/-- `from_text_bytes_lossy` of one line. -/
def lossyBytes (t : List Nat × List Nat) : Bool :=
  (fromTextLossy ucd15 [] (utf8Lossy (bytes t.1)) [4096]).map encode == some (bytes t.2)

/-! `basic_text_invalid` (`tests/samples.rs:16-46`), line by line. -/

theorem sample_invalid0 : sampleInvalid0.all lossyBytes = true := by decide +kernel
theorem sample_invalid1 : sampleInvalid1.all lossyBytes = true := by decide +kernel
theorem sample_invalid2 : sampleInvalid2.all lossyBytes = true := by decide +kernel
theorem sample_invalid3 : sampleInvalid3.all lossyBytes = true := by decide +kernel
theorem sample_invalid4 : sampleInvalid4.all lossyBytes = true := by decide +kernel
theorem sample_invalid5 : sampleInvalid5.all lossyBytes = true := by decide +kernel

end Verif.RepoTests
