import Verif.Spec.Restart

/-!
# The process ends while files are being written
-/

namespace Verif

/-- The files the library writes when it stores the token, in order. -/
def filesOf (e : Env) (l : Lib) : List Write := (storeToken e.store l.rng l.token).wr

/-- The files of the objects in the directory are the ones that would be written. -/
def ObjectsOnDisk (e : Env) (l : Lib) (d : Disk) : Prop := ∀ w ∈ (filesOf e l).tail, d w.1 = some w.2

/-- The directory after the first `n` of the files `ws` were written completely. -/
def afterFiles (d : Disk) (ws : List Write) (n : Nat) : Disk := d.puts (ws.take n)

/-- The directory after the first `n` files were written completely and the next one, `w`,
up to `m` bytes. -/
def insideFile (d : Disk) (ws : List Write) (n : Nat) (w : Write) (m : Nat) : Disk :=
  (afterFiles d ws n).put (w.1, w.2.take m)

/-- A new process on a directory. -/
def startOn (l : Lib) (d : Disk) : Lib := { disk := d, uid := l.uid, rng := l.rng }

end Verif
