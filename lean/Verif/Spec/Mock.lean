import Verif.Model.Mock

/-!
# Notions for the mock file system
-/

set_option autoImplicit false

namespace Verif.Mock

/-- What is still to be read through a file descriptor; `none` if it is not open. -/
def view (sizeMax : Nat) (fs : FS) (fd : Nat) : Option Bytes :=
  (fs[fd]?).bind fun f => if f.offset = sizeMax then none else some (f.content.drop f.offset)

/-- The content of the first file with a path. -/
def contentOf (fs : FS) (path : Bytes) : Option Bytes :=
  (fs.find? fun f => f.path == path).map File.content

/-- A call of a function of the mock file system. -/
inductive Call
  | opens (path : Bytes) (rdonly : Bool)
  | reads (fd capacity : Nat)
  | closes (fd : Nat)

/-- The file system after one call; `none` if memory outside a file is read. -/
def Call.step (sizeMax : Nat) (fs : FS) : Call → Option FS
  | .opens path rdonly => some (mockOpen sizeMax fs path rdonly).2
  | .reads fd cap => (mockRead sizeMax fs fd cap).map Prod.snd
  | .closes fd => some (mockClose sizeMax fs fd).2

/-- The file systems that calls can produce. -/
inductive Reachable (sizeMax : Nat) (files : FS) : FS → Prop
  | start : Reachable sizeMax files (mount sizeMax files)
  | step {fs fs' : FS} (call : Call) : Reachable sizeMax files fs → call.step sizeMax fs = some fs' →
      Reachable sizeMax files fs'

/-- The value of a property: that of the first entry with this key. -/
def lookup (props : List (Bytes × Bytes)) (key : Bytes) : Option Bytes :=
  (props.find? fun p => p.1 == key).map Prod.snd

end Verif.Mock
