import Verif.Model.Conics

/-!
# Model of `unit_vector` and of `augment_tensor` with any arguments, `attitude/geom/util.py`
-/

namespace Attitude.GeomUtil

open Attitude Conics

/-- An argument of `unit_vector`, geom/util.py L30-46: a number or an array with one dimension. -/
inductive Arg where
  | number (x : ℝ)
  | array {n : ℕ} (v : Vec n)

/-- `vec/N.linalg.norm(vec)`, geom/util.py L46; `none` for `nan`.  The norm of a number is its absolute value. -/
noncomputable def Arg.normalized : Arg → Option Arg
  | .number x => if |x| = 0 then none else some (.number (x / |x|))
  | .array v => if norm v = 0 then none else some (.array fun i => v i / norm v)

/-- `vector` of numbers, geom/util.py L23-28.  Arrays among the arguments are not modelled. -/
def vectorOf (xs : List ℝ) : Vec xs.length := fun i => xs.get i

/-- The body of the first `unit_vector`, geom/util.py L30-32, for numbers. -/
noncomputable def firstUnitVector (xs : List ℝ) : Option Arg := (Arg.array (vectorOf xs)).normalized

/-- The parameters of a function: `*args`, or a number of them.  geom/util.py L30 and L42. -/
inductive Params where
  | star
  | fixed (n : ℕ)

/-- The functions that the module defines with the name `unit_vector`, in order: geom/util.py L30 and L42. -/
def unitVectorDefs : List Params := [.star, .fixed 1]

/-- What the name is bound to once the module is imported: the definition executed last.
geom/util.py L30-46. -/
def unitVectorBound : Option Params := unitVectorDefs.getLast?

/-- A call of `unit_vector` with positional arguments, geom/util.py L30-46.  The branch for `*args`
keeps only the numbers among the arguments; it is not taken, as the name is not bound to that definition. -/
noncomputable def unitVector (args : List Arg) : Except PyErr (Option Arg) :=
  match unitVectorBound with
  | none => .error .nameError
  | some .star => .ok (firstUnitVector (args.filterMap fun a => match a with
      | .number x => some x
      | .array _ => none))
  | some (.fixed n) => if args.length = n then .ok (args.head?.bind Arg.normalized) else .error .typeError

/-- `augment_tensor`, geom/util.py L9-21.  The slice `arr[:s[0],:s[1]]` ends at the end of `arr`; an array of
another shape can be assigned to it only if it has one row or one column instead. -/
noncomputable def augmentTensor {p q : ℕ} (M : Mat p q) (ndim : Option ℕ := none) :
    Except PyErr (Mat (ndim.getD (p + 1)) (ndim.getD (p + 1))) :=
  if (p ≤ ndim.getD (p + 1) ∨ p = 1) ∧ (q ≤ ndim.getD (p + 1) ∨ q = 1) then
    .ok (Matrix.of fun i j => if h : i.val < p ∧ j.val < q then M ⟨i.val, h.1⟩ ⟨j.val, h.2⟩
      else if i = j then 1 else 0)
  else .error .valueError

end Attitude.GeomUtil
