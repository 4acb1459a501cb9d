import Verif.Model.Flt
/-!
# Random number generator

Models `fastiron/src/utils/mc_rng_state.rs`.  Words are bit vectors with wrapping arithmetic.
-/

namespace Rng

/-- State update of `rng_sample`, `mc_rng_state.rs` 12-16. -/
def lcg (s : BitVec 64) : BitVec 64 := 2862933555777941757#64 * s + 3037000493#64

/-- `rng_sample`, `mc_rng_state.rs` 11-23: returns the sample and the new state. -/
def sample {T : Type} [Flt T] (seed : BitVec 64) : T × BitVec 64 :=
  let s := lcg seed
  (Flt.ofSeed s, s)

/-- `seed as f64`, `mc_rng_state.rs` 20: the IEEE conversion of a 64-bit integer to binary64, round to
nearest with ties to even.  The result is an integer. -/
def u64ToF64 (n : Nat) : Nat :=
  if n < 2 ^ 53 then n
  else
    let k := Nat.log2 n - 52
    let q := n / 2 ^ k
    let r := n % 2 ^ k
    if 2 * r < 2 ^ k ∨ (2 * r = 2 ^ k ∧ q % 2 = 0) then q * 2 ^ k else (q + 1) * 2 ^ k

/-- `breakup_u64`, `mc_rng_state.rs` 42-47: big-endian halves. -/
def breakup (n : BitVec 64) : BitVec 32 × BitVec 32 :=
  (n.extractLsb' 32 32, n.extractLsb' 0 32)

/-- `rebuild_u64`, `mc_rng_state.rs` 74-80. -/
def rebuild (front back : BitVec 32) : BitVec 64 := front ++ back

/-- The value xor-ed into `lword` by one round of `pseudo_des`, `mc_rng_state.rs` 55-69. -/
def roundF (c1 c2 iswap : BitVec 32) : BitVec 32 :=
  let ia := iswap ^^^ c1
  let itmpl := ia &&& 0xffff#32
  let itmph := ia >>> 16
  let ib := itmpl * itmpl + ~~~(itmph * itmph)
  let ia' := (ib >>> 16) ||| ((ib &&& 0xffff#32) <<< 16)
  (ia' ^^^ c2) + itmpl * itmph

/-- One round of `pseudo_des`, `mc_rng_state.rs` 54-71. -/
def desRound (c1 c2 : BitVec 32) (w : BitVec 32 × BitVec 32) : BitVec 32 × BitVec 32 :=
  (w.2, w.1 ^^^ roundF c1 c2 w.2)

/-- `pseudo_des`, `mc_rng_state.rs` 49-72: `n_iter = 2`, so the first two constants are used. -/
def pseudoDes (w : BitVec 32 × BitVec 32) : BitVec 32 × BitVec 32 :=
  desRound 0x1e17d32c#32 0xe874f0c3#32 (desRound 0xbaa96887#32 0x4b0f3b58#32 w)

/-- `hash_state`, `mc_rng_state.rs` 34-40. -/
def hashState (s : BitVec 64) : BitVec 64 :=
  let w := pseudoDes (breakup s)
  rebuild w.1 w.2

/-- `spawn_rn_seed`, `mc_rng_state.rs` 27-31: (spawned seed, new parent state). -/
def spawn (parent : BitVec 64) : BitVec 64 × BitVec 64 := (hashState parent, lcg parent)

end Rng
