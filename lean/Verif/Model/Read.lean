import Verif.Base

/-!
# `read(2)` as an adversarial schedule

Every file reader of cpuinfo is a loop around `read(file, data_start, capacity)`.  POSIX lets
the kernel return any non-zero number of bytes up to the capacity before end of file, or an
error.  The schedule answers the i-th call.
-/

set_option autoImplicit false

namespace Verif

/-- Answers of the kernel to successive `read` calls: `none` is an error (`-1`), `some k` means
"at most `k + 1` bytes this time". -/
abbrev Sched := Nat → Option Nat

/-- One `read` call: `wish` is the schedule's answer, `cap` the capacity passed by the caller and
`rest` the part of the file not yet read.  Result: the bytes delivered and the new rest.
Models the `read`/`cpuinfo_mock_read` calls at src/linux/cpulist.c:179-181,
src/linux/multiline.c:46-48, src/linux/smallfile.c:46-48. -/
def sysRead (wish : Option Nat) (cap : Nat) (rest : Bytes) : Option (Bytes × Bytes) :=
  match wish with
  | none => none
  | some k => some (rest.take (min (k + 1) cap), rest.drop (min (k + 1) cap))

/-- A schedule without read errors. -/
def Sched.NoError (sched : Sched) : Prop := ∀ i, sched i ≠ none

/-- The schedule realised by the mock file system, which always returns as many bytes as fit
(src/linux/mockfile.c:95-102).  `n` is any bound on the file size. -/
def fullSched (n : Nat) : Sched := fun _ => some n

end Verif
