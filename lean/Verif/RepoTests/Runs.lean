import Verif.Tables.Tests
import Verif.BytesIO
import Verif.Strings
import Verif.Ucd15Text

/-!
# The model passes the tests of the repository

These are tests, not proofs of properties: the inputs of the repository's own tests are run through the model by the kernel, and
the model gives what the tests expect of the code.  They are evidence that the model, and the models of its dependencies and of the
Unicode data, transcribe the code.
-/

namespace Verif.RepoTests
open Verif.Tables

def str (l : List Nat) : List Char := l.map Char.ofNat
def bytes (l : List Nat) : Bytes := l.map UInt8.ofNat

/-- `read_to_string` of a reader whose content comes in one read, with the end or before it, or scalar by scalar; and with buffers
of the smallest size (`NORMALIZATION_BUFFER_SIZE`), as in the tests in `src/text_reader.rs:230-290`. -/
def reads (nel lsps : Bool) (t : List Nat × List Nat) : Bool :=
  let s := str t.1
  [([], s), ([s], []), (s.map ([·]), [])].all fun p =>
    [136, 4096].all fun len =>
      readToEnd ucd15 (List.replicate (4 * s.length + 10) len) (.new nel lsps)
        (p.1.map (fun c => .data c .active) ++ [.data p.2 .end_]) == some (str t.2)

def lossy (t : List Nat × List Nat) : Bool := fromTextLossy ucd15 [] (str t.1) [4096] == some (str t.2)

def owned (t : List Nat × List Nat) : Bool := fromTextOwned ucd15 (isBasicText ucd15) (str t.1) == .ok (str t.2)

def writes (w : Option Writer) (t : List Nat × List Nat) : Bool :=
  (w.bind fun w => writeClose ucd15 w (encode (str t.1))) == some (str t.2)

def fails (w : Writer) (t : List Nat) : Bool := writeClose ucd15 w (encode (str t)) == none

def fresh : Writer := .new ⟨[], false, []⟩

theorem read_tests : readTests.all (reads false false) = true := by decide +kernel
theorem read_nel_tests : readNelTests.all (reads true false) = true := by decide +kernel
theorem read_lsps_tests : readLspsTests.all (reads false true) = true := by decide +kernel
theorem owned_tests : ownedTests.all owned = true := by decide +kernel
theorem write_tests : writeTests.all (writes (some fresh)) = true := by decide +kernel
theorem write_bom_tests : writeBomTests.all (writes (Writer.newBom ⟨[], false, []⟩)) = true := by decide +kernel
theorem write_crlf_tests : writeCrlfTests.all (writes (some (.newCrlf ⟨[], false, []⟩))) = true := by decide +kernel
theorem write_err_tests : writeErrTests.all (fails fresh) = true := by decide +kernel
theorem write_crlf_err_tests : writeCrlfErrTests.all (fails (.newCrlf ⟨[], false, []⟩)) = true := by decide +kernel

end Verif.RepoTests
