import Verif.Model.Api

/-!
Model of `cpuinfo_initialize` and `cpuinfo_deinitialize` (`src/init.c`) called by any number of
threads, together with queries (`src/api.c`) that may run at any time.

One step is one call, one return, one assignment to a global variable or one read of a global
variable.  Memory is sequentially consistent.  The contract of `pthread_once` and
`InitOnceExecuteOnce` (whose callbacks always return TRUE, src/x86/windows/init.c:669 and
src/arm/windows/init.c:35) is part of the model: the first caller runs the routine, the others wait
until it has finished.  Detection itself only touches local memory before the commit block, so the
routine is the list of its assignments to global variables; which list it is depends on what
detection finds and is chosen when the routine starts.  The empty list is a detection that failed.

Simplification: after a fatal query the process is gone; here only the thread stops, which allows
more executions.
-/

set_option autoImplicit false

namespace Verif.Once

open Api

/-- The state of `init_guard`, src/init.c:15-21. -/
inductive Guard
  | fresh | running | done
deriving DecidableEq, Repr

/-- Where a thread is. -/
inductive Pc (E : Kind → Type)
  | idle
  /-- inside `cpuinfo_initialize`, before `pthread_once` lets it through -/
  | waiting
  /-- inside the routine, with these assignments still to do -/
  | running (rest : List (Store E))
  /-- `pthread_once` has returned, src/init.c:64 comes next -/
  | leaving
  /-- inside a query -/
  | asking (q : Query) (rest : Prog E)
  /-- stopped by a fatal query -/
  | dead

/-- The state of the process.  `starts`, `verdicts` and `answers` record what happened and are not
read by the program: how often the routine was started, what `cpuinfo_initialize` returned, and what
queries returned. -/
structure World (E : Kind → Type) where
  guard : Guard
  mem : Globals E
  pc : Nat → Pc E
  starts : Nat
  verdicts : List Bool
  answers : List (Query × Res E)

/-- Where a thread goes after a query: nowhere if the query was fatal. -/
def afterQuery {E : Kind → Type} : Res E → Pc E
  | .abort => .dead
  | .fault => .idle
  | .ret _ => .idle

/-- Move thread `t`. -/
def World.goto {E : Kind → Type} (w : World E) (t : Nat) (p : Pc E) : World E :=
  { w with pc := fun t' => if t' = t then p else w.pc t' }

/-- The start of the process. -/
def World.initial {E : Kind → Type} (u : E .uarch) : World E :=
  ⟨.fresh, .initial u, fun _ => .idle, 0, [], []⟩

/-- One step of the process.  `Outcome c` says that `c` is a list of assignments that the
initialization routine of this platform may perform. -/
inductive Step {E : Kind → Type} (b : Build) (Outcome : List (Store E) → Prop) :
    World E → World E → Prop
  /-- a thread calls `cpuinfo_initialize` -/
  | call (w : World E) (t : Nat) : w.pc t = .idle → Step b Outcome w (w.goto t .waiting)
  /-- the first thread to reach the guard starts the routine, src/init.c:26-60 -/
  | start (w : World E) (t : Nat) (c : List (Store E)) : w.pc t = .waiting → w.guard = .fresh →
      Outcome c →
      Step b Outcome w { w.goto t (.running c) with guard := .running, starts := w.starts + 1 }
  /-- one assignment of the routine -/
  | store (w : World E) (t : Nat) (s : Store E) (rest : List (Store E)) :
      w.pc t = .running (s :: rest) →
      Step b Outcome w { w.goto t (.running rest) with mem := s.apply w.mem }
  /-- the routine returns -/
  | finish (w : World E) (t : Nat) : w.pc t = .running [] →
      Step b Outcome w { w.goto t .leaving with guard := .done }
  /-- the guard lets a thread through once the routine has finished -/
  | pass (w : World E) (t : Nat) : w.pc t = .waiting → w.guard = .done →
      Step b Outcome w (w.goto t .leaving)
  /-- `return cpuinfo_is_initialized`, src/init.c:64 -/
  | verdict (w : World E) (t : Nat) : w.pc t = .leaving →
      Step b Outcome w { w.goto t .idle with verdicts := w.mem.isInitialized :: w.verdicts }
  /-- `cpuinfo_deinitialize`, src/init.c:67 -/
  | deinitialize (w : World E) (t : Nat) : w.pc t = .idle → Step b Outcome w w
  /-- a thread calls a query -/
  | ask (w : World E) (t : Nat) (q : Query) : w.pc t = .idle →
      Step b Outcome w (w.goto t (.asking q (q.prog b)))
  /-- a query reads a global variable -/
  | read (w : World E) (t : Nat) (q : Query) (k : Globals E → Prog E) :
      w.pc t = .asking q (.read k) → Step b Outcome w (w.goto t (.asking q (k w.mem)))
  /-- a query returns -/
  | answer (w : World E) (t : Nat) (q : Query) (r : Res E) :
      w.pc t = .asking q (.done r) →
      Step b Outcome w
        { w.goto t (afterQuery r) with answers := (q, r) :: w.answers }

/-- The states a process can get into. -/
inductive Steps {E : Kind → Type} (b : Build) (Outcome : List (Store E) → Prop) :
    World E → World E → Prop
  | refl (w : World E) : Steps b Outcome w w
  | tail (u v w : World E) : Steps b Outcome u v → Step b Outcome v w → Steps b Outcome u w

/-- `cpuinfo_initialize` on Emscripten without threads, src/init.c:56-59 and 64: `guard` is
`init_guard`, `runs` counts the calls of the routine, `outcome` is what this call of it would do.
The result is the verdict and the new state. -/
def emscriptenInitialize {E : Kind → Type} (outcome : List (Store E))
    (st : Bool × Globals E × Nat) : Bool × (Bool × Globals E × Nat) :=
  let (guard, mem, runs) := st
  let (mem, runs) := if ¬ guard then (applyAll outcome mem, runs + 1) else (mem, runs)
  (mem.isInitialized, (true, mem, runs))

/-- A sequence of such calls: all verdicts and the final state. -/
def emscriptenCalls {E : Kind → Type} :
    List (List (Store E)) → Bool × Globals E × Nat → List Bool × (Bool × Globals E × Nat)
  | [], st => ([], st)
  | o :: os, st =>
    let (v, st) := emscriptenInitialize o st
    let (vs, st) := emscriptenCalls os st
    (v :: vs, st)

end Verif.Once
