import Verif.Model.Flt
/-!
# Binding of threads to processing units

Models `bind_threads` and `has_ancestor`, `fastiron/src/main.rs` 183-222.  The description of the machine comes from an
external library: the types of objects are numbered, and the library may not know a depth.
-/

/-- An object of the topology of a machine: its type, its logical index, and its parent if it has one. -/
inductive TopoObject where
  | root (kind index : Nat)
  | child (kind index : Nat) (parent : TopoObject)
deriving DecidableEq, Repr

def TopoObject.kind : TopoObject → Nat
  | .root k _ => k
  | .child k _ _ => k

def TopoObject.index : TopoObject → Nat
  | .root _ i => i
  | .child _ i _ => i

/-- `has_ancestor`, `main.rs` 214-222. -/
def hasAncestor (ancestor : TopoObject) : TopoObject → Bool
  | .root _ _ => false
  | .child _ _ f => (f.kind == ancestor.kind && f.index == ancestor.index) || hasAncestor ancestor f

/-- What the library says of the machine: the depth of NUMA nodes or of the objects above them, the objects at a
depth, and the processing units. -/
structure Topology where
  numaDepth : Option Nat
  objectsAt : Nat → List TopoObject
  processingUnits : List TopoObject

/-- `iter.cycle().nth(k)`: the list is repeated without end. -/
def cycleNth {α : Type} (l : List α) (k : Nat) : Option α :=
  if l.isEmpty then none else l[k % l.length]?

/-- The processing unit of a thread, `bind_threads`, `main.rs` 189-203.  The call of the library that binds the thread
only prints a message when it fails. -/
def bindTarget (topo : Topology) (threadId : Nat) : Except Panic TopoObject := do
  let ancestor ← unwrap (topo.objectsAt (topo.numaDepth.getD 0)).head?
  unwrap (cycleNth (topo.processingUnits.filter fun pu => hasAncestor ancestor pu) threadId)
