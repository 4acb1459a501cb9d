import Verif.Model.Flt
/-!
# Hash maps

Models the use of `FxHashMap` in the mesh construction.

A map is the list of its entries in the order in which the keys were first inserted.  Nothing is
ever removed from the maps of this code base.  The order in which Rust *iterates* over a map depends
on the hasher and on the history of insertions: it is an unknown function `order` from the keys in
insertion order to the keys in iteration order.  Theorems hold for every `order` that returns a
permutation of its argument.
-/

/-- `FxHashMap<K, V>`: entries in insertion order. -/
abbrev HMap (K V : Type) := List (K × V)

/-- Iteration order of the hash maps with `usize` keys. -/
abbrev IterOrder := List Nat → List Nat

namespace HMap
variable {K V : Type} [DecidableEq K]

/-- `get`. -/
def get? (m : HMap K V) (k : K) : Option V := (m.find? fun e => decide (e.1 = k)).map (·.2)

/-- `contains_key`. -/
def hasKey (m : HMap K V) (k : K) : Bool := m.any fun e => decide (e.1 = k)

/-- `map[&k]`, with its panic. -/
def index (m : HMap K V) (k : K) : Except Panic V :=
  match m.get? k with
  | some v => .ok v
  | none => .error .unwrapNone

/-- `insert`: overwrites the value of a present key. -/
def insert (m : HMap K V) (k : K) (v : V) : HMap K V :=
  if m.hasKey k then m.map fun e => if e.1 = k then (k, v) else e else m ++ [(k, v)]

/-- `entry(k).or_insert(v)`: does not overwrite. -/
def orInsert (m : HMap K V) (k : K) (v : V) : HMap K V :=
  if m.hasKey k then m else m ++ [(k, v)]

/-- `keys`, in insertion order. -/
def keys (m : HMap K V) : List K := m.map (·.1)

/-- The entries in iteration order. -/
def iter (order : IterOrder) (m : HMap Nat V) : List (Nat × V) :=
  (order m.keys).filterMap fun k => (m.get? k).map fun v => (k, v)

end HMap
