import Verif.RepoTests.Runs

/-! `tests/basic-text-string.rs`: lossy conversion.  See `Verif.RepoTests.Runs`. -/

namespace Verif.RepoTests
open Verif.Tables

theorem lossy_tests0 : lossyTests0.all lossy = true := by decide +kernel
theorem lossy_tests1 : lossyTests1.all lossy = true := by decide +kernel
theorem lossy_tests2 : lossyTests2.all lossy = true := by decide +kernel
theorem lossy_tests3 : lossyTests3.all lossy = true := by decide +kernel
theorem lossy_tests4 : lossyTests4.all lossy = true := by decide +kernel
theorem lossy_tests5 : lossyTests5.all lossy = true := by decide +kernel
theorem lossy_tests6 : lossyTests6.all lossy = true := by decide +kernel
theorem lossy_tests7 : lossyTests7.all lossy = true := by decide +kernel
theorem lossy_tests8 : lossyTests8.all lossy = true := by decide +kernel
theorem lossy_tests9 : lossyTests9.all lossy = true := by decide +kernel
theorem lossy_tests10 : lossyTests10.all lossy = true := by decide +kernel
theorem lossy_tests11 : lossyTests11.all lossy = true := by decide +kernel
theorem lossy_tests12 : lossyTests12.all lossy = true := by decide +kernel

theorem lossy_tests : lossyTests.all lossy = true := by
  simp only [lossyTests, List.all_append, Bool.and_eq_true]
  simp only [lossy_tests0, lossy_tests1, lossy_tests2, lossy_tests3, lossy_tests4, lossy_tests5, lossy_tests6, lossy_tests7, lossy_tests8, lossy_tests9, lossy_tests10, lossy_tests11, lossy_tests12, and_self]

end Verif.RepoTests
