import Verif.Model.Container
/-!
# Parallel iteration over a collection of particles

Models `fastiron/src/particles/particle_collection.rs` 104-250, and the parts of rayon that drive it in
`process_particles` (`particle_container.rs` 123-151): `chunks`, the recursive splitting of `bridge`, and the
reduction of `fold_with` followed by `sum`.  Rayon decides while it runs whether to split a piece of work in two; these
decisions are an argument.
-/

/-- `ParticleProducer::split_at` and `ParticleProducerMut::split_at`, `particle_collection.rs` 208-214 and 235-241:
those of slices, which panic beyond the end. -/
def producerSplitAt {α : Type} (l : List α) (i : Nat) : Except Panic (List α × List α) :=
  if i ≤ l.length then .ok (l.take i, l.drop i) else .error .indexOutOfBounds

/-- Rayon's producer of chunks: a producer, its length, and the size of the chunks. -/
structure ChunkProducer (α : Type) where
  size : Nat
  len : Nat
  base : List α

/-- Splitting a producer of chunks after `index` chunks. -/
def ChunkProducer.splitAt {α : Type} (p : ChunkProducer α) (index : Nat) :
    Except Panic (ChunkProducer α × ChunkProducer α) := do
  let e := min (index * p.size) p.len
  let (l, r) ← producerSplitAt p.base e
  return ({ p with len := e, base := l }, { p with len := p.len - e, base := r })

/-- The chunks of a producer, one after the other: a chunk is split off while more than one remains. -/
def chunkSeq {α : Type} (size : Nat) : Nat → Nat → List α → Except Panic (List (List α))
  | 0, _, _ => .error .outOfFuel
  | fuel + 1, len, base =>
    if len > size then do
      let (l, r) ← producerSplitAt base size
      let rest ← chunkSeq size fuel (len - size) r
      return l :: rest
    else .ok [base]

/-- The chunks that one task handles when it does not split its work. -/
def ChunkProducer.iter {α : Type} (p : ChunkProducer α) : Except Panic (List (List α)) :=
  if p.len > 0 then chunkSeq p.size p.len p.len p.base else .ok []

/-- The decisions of rayon: where it splits a piece of work. -/
inductive SplitTree where
  | leaf
  | node (l r : SplitTree)
deriving DecidableEq, Repr

/-- How the work was split: the pieces of the tasks. -/
inductive Parts (β : Type) where
  | leaf (l : List β)
  | node (l r : Parts β)
deriving DecidableEq, Repr

/-- `bridge`: a piece of `len` items is split in the middle when rayon decides so and it has at least two items. -/
def bridgeParts {α : Type} : SplitTree → Nat → ChunkProducer α → Except Panic (Parts (List α))
  | .leaf, _, p => do
    let cs ← p.iter
    return .leaf cs
  | .node tl tr, len, p =>
    if len / 2 ≥ 1 then do
      let (pl, pr) ← p.splitAt (len / 2)
      let l ← bridgeParts tl (len / 2) pl
      let r ← bridgeParts tr (len - len / 2) pr
      return .node l r
    else do
      let cs ← p.iter
      return .leaf cs

/-- `par_iter_mut().chunks(size)` on a collection: rayon refuses the size 0, and the number of chunks is rounded
upwards. -/
def parChunks {α : Type} (tree : SplitTree) (size : Nat) (l : List α) : Except Panic (Parts (List α)) := do
  assertB (size ≠ 0)
  bridgeParts tree ((l.length + (size - 1)) / size) { size := size, len := l.length, base := l }

/-- All the items, from left to right. -/
def Parts.toList {β : Type} : Parts β → List β
  | .leaf l => l
  | .node l r => l.toList ++ r.toList

/-- The results of the items, for the same division of the work. -/
def Parts.fill {β γ : Type} : Parts β → List γ → Parts γ
  | .leaf _, rs => .leaf rs
  | .node l r, rs => .node (l.fill (rs.take l.toList.length)) (r.fill (rs.drop l.toList.length))

/-- `fold_with(Balance::default(), |a, b| a + b).sum::<Balance>()`: a task adds the balances of its chunks to a default
one and gives it to a sum; the sums of two halves are added with `Sum`. -/
def Parts.reduce : Parts Balance → Balance
  | .leaf bs => Balance.sum [Balance.sum [], bs.foldl Balance.add {}]
  | .node l r => Balance.sum [l.reduce, r.reduce]

variable {T : Type} [Flt T]

/-- `process_particles` in parallel, `particle_container.rs` 117-163, for given decisions of rayon and any interleaving
of the accesses of the chunks. -/
inductive ProcessSplit (data : Data T) (ex : ExecInfo) (fuel : Nat) (tree : SplitTree) (u : UnitState T)
    (c : Container T) : UnitState T → Container T → Prop where
  | par {k : Nat} {parts : Parts (List (Particle T))}
      {pool' : List (Prog T (List (Particle T) × Balance))} {m' : Shared T}
      {results : List (List (Particle T) × Balance)} : ex.policy = .rayon ∨ ex.policy = .hybrid →
      chunkSizeFor ex c.processing.length = .ok k →
      parChunks tree k c.processing = .ok parts →
      PoolSteps (parts.toList.map (chunkProg data u.dom fuel)) (sharedOf u c) pool' m' →
      pool' = results.map Prog.ret →
      (parts.fill (results.map Prod.snd)).reduce.start = 0 →
      (parts.fill (results.map Prod.snd)).reduce.end_ = 0 →
      (parts.fill (results.map Prod.snd)).reduce.source = 0 →
      ProcessSplit data ex fuel tree u c
        (finishProcess u c m' (results.map Prod.fst).flatten (parts.fill (results.map Prod.snd)).reduce).1
        (finishProcess u c m' (results.map Prod.fst).flatten (parts.fill (results.map Prod.snd)).reduce).2
