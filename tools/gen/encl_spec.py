out='''import Verif.Model
import Verif.Spec.Basic
/-!
# Vocabulary for bounding balls

What a client of the library writes to bound objects by discs (2D) or balls (3D): a center and a radius, with the usual tests.
-/

namespace VecMath
open Scalar
variable {S : Type} [Scalar S]
'''
for n in (2,3):
    P=f'Point{n}'; B=f'Ball{n}'; K=2**n; w={2:'disc',3:'ball'}[n]
    out+=f'''
/-- A {w}: center and radius. -/
structure {B} (S : Type) where
  center : {P} S
  radius : S
namespace {B}
/-- `center.distance(p) <= radius` -/
def has (a : {B} S) (p : {P} S) : Bool := Api.distance a.center p ≤? a.radius
/-- The {w}s overlap: `a.center.distance(b.center) <= a.radius + b.radius` -/
def meets (a b : {B} S) : Bool := Api.distance a.center b.center ≤? a.radius + b.radius
/-- The first {w} is inside the second: `a.center.distance(b.center) + a.radius <= b.radius` -/
def within (a b : {B} S) : Bool := Api.distance a.center b.center + a.radius ≤? b.radius
/-- The {w} around two {w}s: the larger one if it contains the other, otherwise the one that touches both from outside. -/
def join (a b : {B} S) : {B} S :=
  if a.within b then b else if b.within a then a else
    let d : S := Api.distance a.center b.center
    let r := (d + (a.radius + b.radius)) * half
    ⟨a.center + (b.center - a.center) * ((r - a.radius) / d), r⟩
/-- The {w} around `c` through the farthest of some points. -/
def around (c : {P} S) (ps : List ({P} S)) : {B} S := ⟨c, ps.foldl (fun r p => fmax r (Api.distance c p)) zero⟩
end {B}
/-- `(1..{K}).map(|k| b.corner(k)).fold(b.corner(0), |best, q| c.farthest(best, q))` -/
def BoundingBox{n}.farCorner (b : BoundingBox{n} S) (build : Build) (c : {P} S) : Except Panic ({P} S) := do
  let first ← b.corner build 0
  let others ← ([{', '.join(str(i) for i in range(1,K))}] : List UInt32).mapM (b.corner build)
  return others.foldl (Api.farthest c) first
/-- The {w} around the center of a box whose radius is half the diagonal. -/
def BoundingBox{n}.ball (b : BoundingBox{n} S) : {B} S := ⟨b.center, Api.length b.diagonal * half⟩
'''
out+='\nend VecMath\n'
open('/verif/lean/Verif/Spec/Ball.lean','w').write(out)
