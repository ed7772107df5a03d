import Verif.Base

/-!
# Compile-time selection (ClassSelector.h, TraitsBind.h, ConstexprFor.h, DimensionPos)

Template parameter packs are lists; a compile-time error is `none`.
-/

namespace GTMesh

/-- `ClassSelector<VarType, Condition, Classes...>::SelectedClass`; `cond` is `Condition<VarType, ·>::value`.
An empty pack does not compile. ClassSelector.h:6-16 -/
def classSelect {α : Type u} (cond : α → Bool) : List α → Option α
  | [] => none
  | [c] => some c
  | c :: d :: r => if cond c then classSelect cond [c] else classSelect cond (d :: r)
termination_by l => l.length

/-- `DimensionPos<dim, pos, Dimensions...>::value`; the last alternative has a `static_assert`.
MeshDataContainer.h:12-21 -/
def dimensionPos (dim : Nat) (pos : Nat) : List Nat → Option Nat
  | [] => none
  | [d] => if dim = d then some pos else none
  | d :: e :: r => if dim = d then some pos else dimensionPos dim (pos + 1) (e :: r)

/-- What `SelectTraits` resolves to: the bound traits at a position of the tuple, the default traits of the
class, or nothing (`valid == false`). -/
inductive TraitsChoice where
  | bound (pos : Nat)
  | default
  | none
  deriving DecidableEq, Repr

/-- `SelectTraits<Class, Index, DefaultTraits, TraitsTypes...>`; the pack is given by
`IsTraitsOf<Class, TraitsType>::value` for each type, `hasDefault` is
`HasDefaultTraitsOfType<Class, DefaultTraits>::value`. TraitsBind.h:57-128 -/
def selectTraits (hasDefault : Bool) (index : Nat) : List Bool → TraitsChoice
  | [] => if hasDefault then .default else .none
  | [b] => if b then .bound index else if hasDefault then .default else .none
  | b :: c :: r => if b then .bound index else selectTraits hasDefault (index + 1) (c :: r)

/-- `ConstexprFor<start, stop, step>::exec`: the indices the functor is called with. `Index + step` is
computed in `size_t` (64 bits). The first argument is the remaining depth of template instantiation;
`none` means that the compiler gives up. ConstexprFor.h:9-27 -/
def cforFrom (start stop step : Nat) : Nat → Nat → Option (List Nat)
  | 0, _ => none
  | n + 1, i =>
    if (if start < stop then i ≥ stop else i ≤ stop) then some []
    else (cforFrom start stop step n ((i + step) % 2 ^ 64)).map (i :: ·)

/-- `constexprFor<Functor, start, stop, step>()`, ConstexprFor.h:29-32 -/
def constexprFor3 (depth start stop step : Nat) : Option (List Nat) := cforFrom start stop step depth start

/-- `constexprFor<Functor, stop>()`, ConstexprFor.h:35-38 -/
def constexprFor1 (depth stop : Nat) : Option (List Nat) := cforFrom 0 stop 1 depth 0

/-! ## Names of the arrays of a MeshDataContainer -/

/-- The loop writing the decimal digits: `mod` runs over 100, 10, 1; a zero digit is skipped.
Writing outside `char name[8]` is undefined behaviour. MeshDataContainerTraits.h:17-25 -/
def nameDigits : List Nat → Nat → Nat → List Char → Res (List Char × Nat)
  | [], _, i, buf => .ok (buf, i)
  | md :: mods, dim, i, buf =>
    let digit := dim / md
    let dim' := dim - digit * md
    if 0 < digit then
      if i < buf.length then nameDigits mods dim' (i + 1) (buf.set i (Char.ofNat ('0'.toNat + digit)))
      else .ub
    else nameDigits mods dim' i buf

/-- `nameContainer()`: the C string in `name` (up to the first NUL). MeshDataContainerTraits.h:12-28 -/
def nameOf (dim : Nat) : Res (List Char) :=
  (nameDigits [100, 10, 1] dim 4 (['d', 'i', 'm', ' '] ++ List.replicate 4 (Char.ofNat 0))).bind fun (buf, i) =>
  if i + 1 < buf.length then .ok ((buf.set (i + 1) (Char.ofNat 0)).takeWhile (· ≠ Char.ofNat 0))
  else .ub

end GTMesh
