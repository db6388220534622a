import Verif.Model.Release

/-! # Disks before and after `sdist` and `build_py` -/

namespace TwoLayer.Version

/-- every name is of a file that has been made -/
def Disk.Valid (d : Disk) : Prop := ∀ p n, d.names p = some n → n < d.next

/-- not in the directory -/
def Outside (base p : Path) : Prop := ¬ base <+: p

/-- the disk when the power fails, or the command is killed, after `k` system calls -/
def crashed (k : Nat) (acts : List Act) (d : Disk) : Disk := (execActs d (acts.take k)).1

/-- the source of a file exists and is not in the tree that is being made -/
def Placed.Real (d : Disk) (base : Path) (f : Placed) : Prop := d.read f.src ≠ none ∧ Outside base f.src

end TwoLayer.Version
