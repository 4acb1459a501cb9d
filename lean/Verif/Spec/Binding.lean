import Verif.Model.Binding
/-!
# Units below an object of the topology
-/

/-- The objects above an object, nearest first. -/
def TopoObject.above : TopoObject → List TopoObject
  | .root _ _ => []
  | .child _ _ f => f :: f.above

/-- The object `o` lies below `a`: an object above it has the type and the index of `a`. -/
def TopoObject.Below (o a : TopoObject) : Prop := ∃ f ∈ o.above, f.kind = a.kind ∧ f.index = a.index

/-- The units `us` below the first object of the depth of NUMA nodes, in the order of the machine. -/
structure UnitsOfFirstNode (topo : Topology) (node : TopoObject) (us : List TopoObject) : Prop where
  first : (topo.objectsAt (topo.numaDepth.getD 0)).head? = some node
  sub : us.Sublist topo.processingUnits
  below : ∀ u ∈ topo.processingUnits, u ∈ us ↔ u.Below node

/-- How many of the threads `0, …, n - 1` are bound to the unit `u`. -/
def threadsOn (topo : Topology) (n : Nat) (u : TopoObject) : Nat :=
  (List.range n).countP fun k => match bindTarget topo k with
    | .ok v => decide (v = u)
    | .error _ => false
