import Verif.Rust.Access
/-! # The source text computes what the model says: scalars

Generated by `tools/gen/refine.py`. `Src.method S p b name self args` is the outcome of evaluating the call
`self.name(args)` on the syntax tree of the source text (`Rust/Source.lean`), with `p` the primitive type and `b` the
build profile; `rep` is the representation of a value of the model. An outcome `.ok v s` means that the call returns
`v` and leaves its receiver as `s`: it neither panics nor runs forever. -/

namespace VecMath.Rust
open VecMath Scalar
variable {S : Type} [Scalar S]

theorem C81_S_half (p : Prim) (b : Build)  :
    Src.assoc S p b (i!"S") (i!"half") [] =
      .ok (.sc (Scalar.half : S)) .unit := by
  cases p <;> kernel_rfl

theorem C81_S_two (p : Prim) (b : Build)  :
    Src.assoc S p b (i!"S") (i!"two") [] =
      .ok (.sc (Scalar.two : S)) .unit := by
  cases p <;> kernel_rfl

theorem C81_min_S (p : Prim) (b : Build) (value other : S) :
    Src.free S p b (i!"min") [.sc value, .sc other] =
      .ok (.sc (Api.min value other)) (.unit) := by
  cases p <;> kernel_rfl

theorem C81_max_S (p : Prim) (b : Build) (value other : S) :
    Src.free S p b (i!"max") [.sc value, .sc other] =
      .ok (.sc (Api.max value other)) (.unit) := by
  cases p <;> kernel_rfl

theorem C81_S_length (p : Prim) (b : Build) (self : S) :
    Src.method S p b (i!"length") (.sc self) [] =
      .ok (.sc (Length.length self)) (.sc self) := by
  cases p <;> kernel_rfl

theorem C81_length_S (p : Prim) (b : Build) (value : S) :
    Src.free S p b (i!"length") [.sc value] =
      .ok (.sc (Api.length value)) (.unit) := by
  cases p <;> kernel_rfl

theorem C81_S_distance (p : Prim) (b : Build) (self s : S) :
    Src.method S p b (i!"distance") (.sc self) [.sc s] =
      .ok (.sc (Distance.distance self s)) (.sc self) := by
  cases p <;> kernel_rfl

theorem C81_distance_S (p : Prim) (b : Build) (value other : S) :
    Src.free S p b (i!"distance") [.sc value, .sc other] =
      .ok (.sc (Api.distance value other)) (.unit) := by
  cases p <;> kernel_rfl

theorem C81_S_is_shorter_than (p : Prim) (b : Build) (self s : S) :
    Src.method S p b (i!"is_shorter_than") (.sc self) [.sc s] =
      .ok (.bool (RelativeLength.isShorterThan self s)) (.sc self) := by
  cases p <;> kernel_rfl

theorem C81_S_is_longer_than (p : Prim) (b : Build) (self s : S) :
    Src.method S p b (i!"is_longer_than") (.sc self) [.sc s] =
      .ok (.bool (RelativeLength.isLongerThan self s)) (.sc self) := by
  cases p <;> kernel_rfl

theorem C81_S_is_closer_to (p : Prim) (b : Build) (self s1 s2 : S) :
    Src.method S p b (i!"is_closer_to") (.sc self) [.sc s1, .sc s2] =
      .ok (.bool (RelativeDistance.isCloserTo self s1 s2)) (.sc self) := by
  cases p <;> kernel_rfl

theorem C81_S_is_farther_from (p : Prim) (b : Build) (self s1 s2 : S) :
    Src.method S p b (i!"is_farther_from") (.sc self) [.sc s1, .sc s2] =
      .ok (.bool (RelativeDistance.isFartherFrom self s1 s2)) (.sc self) := by
  cases p <;> kernel_rfl

theorem C81_S_shortest (p : Prim) (b : Build) (self s : S) :
    Src.method S p b (i!"shortest") (.sc self) [.sc s] =
      .ok (.sc (RelativeLength.shortest self s)) (.sc self) := by
  have h : Src.method S p b (i!"shortest") (.sc self) [.sc s] =
      (bif (Length.length self <? Length.length s) then (.ok (.sc self) (.sc self)) else (.ok (.sc s) (.sc self)) : Out S) := by
    cases p <;> kernel_rfl
  have k : ∀ c0 : Bool, (bif c0 then (.ok (.sc self) (.sc self)) else (.ok (.sc s) (.sc self)) : Out S) =
      (.ok (.sc (if c0 then self else s)) (.sc self) : Out S) := by
    intro c0
    cases c0 <;> rfl
  exact h.trans (k (Length.length self <? Length.length s))

theorem C81_shortest_S (p : Prim) (b : Build) (value other : S) :
    Src.free S p b (i!"shortest") [.sc value, .sc other] =
      .ok (.sc (Api.shortest value other)) (.unit) := by
  have h : Src.free S p b (i!"shortest") [.sc value, .sc other] =
      (bif (Length.length value <? Length.length other) then (.ok (.sc value) (.unit)) else (.ok (.sc other) (.unit)) : Out S) := by
    cases p <;> kernel_rfl
  have k : ∀ c0 : Bool, (bif c0 then (.ok (.sc value) (.unit)) else (.ok (.sc other) (.unit)) : Out S) =
      (.ok (.sc (if c0 then value else other)) (.unit) : Out S) := by
    intro c0
    cases c0 <;> rfl
  exact h.trans (k (Length.length value <? Length.length other))

theorem C81_S_longest (p : Prim) (b : Build) (self s : S) :
    Src.method S p b (i!"longest") (.sc self) [.sc s] =
      .ok (.sc (RelativeLength.longest self s)) (.sc self) := by
  have h : Src.method S p b (i!"longest") (.sc self) [.sc s] =
      (bif (Length.length self >? Length.length s) then (.ok (.sc self) (.sc self)) else (.ok (.sc s) (.sc self)) : Out S) := by
    cases p <;> kernel_rfl
  have k : ∀ c0 : Bool, (bif c0 then (.ok (.sc self) (.sc self)) else (.ok (.sc s) (.sc self)) : Out S) =
      (.ok (.sc (if c0 then self else s)) (.sc self) : Out S) := by
    intro c0
    cases c0 <;> rfl
  exact h.trans (k (Length.length self >? Length.length s))

theorem C81_longest_S (p : Prim) (b : Build) (value other : S) :
    Src.free S p b (i!"longest") [.sc value, .sc other] =
      .ok (.sc (Api.longest value other)) (.unit) := by
  have h : Src.free S p b (i!"longest") [.sc value, .sc other] =
      (bif (Length.length value >? Length.length other) then (.ok (.sc value) (.unit)) else (.ok (.sc other) (.unit)) : Out S) := by
    cases p <;> kernel_rfl
  have k : ∀ c0 : Bool, (bif c0 then (.ok (.sc value) (.unit)) else (.ok (.sc other) (.unit)) : Out S) =
      (.ok (.sc (if c0 then value else other)) (.unit) : Out S) := by
    intro c0
    cases c0 <;> rfl
  exact h.trans (k (Length.length value >? Length.length other))

theorem C81_S_closest (p : Prim) (b : Build) (self s1 s2 : S) :
    Src.method S p b (i!"closest") (.sc self) [.sc s1, .sc s2] =
      .ok (.sc (RelativeDistance.closest self s1 s2)) (.sc self) := by
  have h : Src.method S p b (i!"closest") (.sc self) [.sc s1, .sc s2] =
      (bif (Distance.distance self s1 <? Distance.distance self s2) then (.ok (.sc s1) (.sc self)) else (.ok (.sc s2) (.sc self)) : Out S) := by
    cases p <;> kernel_rfl
  have k : ∀ c0 : Bool, (bif c0 then (.ok (.sc s1) (.sc self)) else (.ok (.sc s2) (.sc self)) : Out S) =
      (.ok (.sc (if c0 then s1 else s2)) (.sc self) : Out S) := by
    intro c0
    cases c0 <;> rfl
  exact h.trans (k (Distance.distance self s1 <? Distance.distance self s2))

theorem C81_closest_S (p : Prim) (b : Build) (value s1 s2 : S) :
    Src.free S p b (i!"closest") [.sc value, .sc s1, .sc s2] =
      .ok (.sc (Api.closest value s1 s2)) (.unit) := by
  have h : Src.free S p b (i!"closest") [.sc value, .sc s1, .sc s2] =
      (bif (Distance.distance value s1 <? Distance.distance value s2) then (.ok (.sc s1) (.unit)) else (.ok (.sc s2) (.unit)) : Out S) := by
    cases p <;> kernel_rfl
  have k : ∀ c0 : Bool, (bif c0 then (.ok (.sc s1) (.unit)) else (.ok (.sc s2) (.unit)) : Out S) =
      (.ok (.sc (if c0 then s1 else s2)) (.unit) : Out S) := by
    intro c0
    cases c0 <;> rfl
  exact h.trans (k (Distance.distance value s1 <? Distance.distance value s2))

theorem C81_S_farthest (p : Prim) (b : Build) (self s1 s2 : S) :
    Src.method S p b (i!"farthest") (.sc self) [.sc s1, .sc s2] =
      .ok (.sc (RelativeDistance.farthest self s1 s2)) (.sc self) := by
  have h : Src.method S p b (i!"farthest") (.sc self) [.sc s1, .sc s2] =
      (bif (Distance.distance self s1 >? Distance.distance self s2) then (.ok (.sc s1) (.sc self)) else (.ok (.sc s2) (.sc self)) : Out S) := by
    cases p <;> kernel_rfl
  have k : ∀ c0 : Bool, (bif c0 then (.ok (.sc s1) (.sc self)) else (.ok (.sc s2) (.sc self)) : Out S) =
      (.ok (.sc (if c0 then s1 else s2)) (.sc self) : Out S) := by
    intro c0
    cases c0 <;> rfl
  exact h.trans (k (Distance.distance self s1 >? Distance.distance self s2))

theorem C81_farthest_S (p : Prim) (b : Build) (value s1 s2 : S) :
    Src.free S p b (i!"farthest") [.sc value, .sc s1, .sc s2] =
      .ok (.sc (Api.farthest value s1 s2)) (.unit) := by
  have h : Src.free S p b (i!"farthest") [.sc value, .sc s1, .sc s2] =
      (bif (Distance.distance value s1 >? Distance.distance value s2) then (.ok (.sc s1) (.unit)) else (.ok (.sc s2) (.unit)) : Out S) := by
    cases p <;> kernel_rfl
  have k : ∀ c0 : Bool, (bif c0 then (.ok (.sc s1) (.unit)) else (.ok (.sc s2) (.unit)) : Out S) =
      (.ok (.sc (if c0 then s1 else s2)) (.unit) : Out S) := by
    intro c0
    cases c0 <;> rfl
  exact h.trans (k (Distance.distance value s1 >? Distance.distance value s2))

end VecMath.Rust
