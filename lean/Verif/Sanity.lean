import Verif.Model.Cycle
import Verif.Model.FloatInst
/-!
# Conformance checks

These run the model with IEEE doubles on the values of the repository's own unit tests.
They are checks that the model transcribes the code, not proofs.
-/
open Flt

def close (a b : Float) (tol : Float := 1e-12) : Bool := (a - b).abs < tol

-- `mc_rng_state.rs` tests `rng_spawned_number` and `pseudo_hash`
#guard (Rng.spawn 90374384094798327#64).1 = 3246986314100353546#64
#guard Rng.pseudoDes (123214124#32, 968374242#32) = (702007026#32, 3221367323#32)

-- the scaling literal of `rng_sample` is exactly 2^-64
#guard (5.421010862427522e-20 : Float) == 1.0 / 18446744073709551616.0

-- `mc_particle.rs` test of `sample_isotropic`
#guard
  let p : Particle Float := { Particle.default with seed := 90374384094798327#64 }
  let d := p.sampleIsotropic.direction
  close d.x 0.9083218129645693 && close d.y (-0.3658911896631176) && close d.z 0.2026699815455325

-- `mc_particle.rs` test of `rotate_direction`
#guard
  let d := Particle.rotate (T := Float) ⟨0.2140, 0.8621, 0.7821⟩
    (Float.sin 1.0) (Float.cos 1.0) (Float.sin 2.0) (Float.cos 2.0)
  close d.x (-1.0369691350703922) && close d.y 0.3496694784021821 && close d.z 0.6407833194623658

-- `mc_particle.rs` test of `update_trajectory`
#guard
  let inv := 1.0 / Float.sqrt 3.0
  let p : Particle Float := { Particle.default with direction := ⟨inv, inv, inv⟩ }
  let (e, s) := Rng.sample (T := Float) 90374384094798327#64
  let (a, _) := Rng.sample (T := Float) s
  let q := p.updateTrajectory e a
  close q.direction.x 0.620283 1e-6 && close q.direction.y 0.620283 1e-6 &&
  close q.direction.z (-0.480102) 1e-6
