/-!
# Common vocabulary of the model

Exceptions as values, Python sequence indexing and numpy boolean masks.
-/

namespace Fm2prof

/-- The exception classes raised by the modelled code. `nanProfile` is not a Python exception: it marks the
points where the model stops because the code would go on computing with missing (NaN) levels. -/
inductive PyErr where
  | indexError
  | valueError
  | keyError
  | nameError
  | typeError
  | attributeError
  | osError
  | initializationError
  | polygonError
  | configError
  | nanProfile
  | outOfFuel
  deriving DecidableEq, Repr

/-- Python's normalisation of a sequence index (`list[i]`, `DataFrame.iloc[i]`): negative indices count from the
end, anything else out of range raises `IndexError`. Used wherever the code indexes with a configured number. -/
def pyIndex (len : Nat) (i : Int) : Except PyErr Nat :=
  if 0 ≤ i then
    if i.toNat < len then .ok i.toNat else .error .indexError
  else
    if (-i).toNat ≤ len then .ok (len - (-i).toNat) else .error .indexError

/-- Python's slice `seq[i:]` on a list: negative starts count from the end, out of range is clipped. -/
def pySliceFrom {α : Type} (i : Int) (l : List α) : List α :=
  if 0 ≤ i then l.drop i.toNat else l.drop (l.length - (-i).toNat)

/-- numpy boolean indexing `arr[mask]` for a mask of the same length. -/
def maskSelect {α : Type} (mask : List Bool) (xs : List α) : List α :=
  ((mask.zip xs).filter (·.1)).map (·.2)

end Fm2prof
